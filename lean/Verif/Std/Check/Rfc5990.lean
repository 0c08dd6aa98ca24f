import Verif.Std.Rfc5990
import Verif.Asn1.Grade

/-! The grades of the classes of rfc5990.py, checked (generated by tools/stdgen.py). -/

set_option maxRecDepth 100000

namespace Verif
namespace Std

theorem Rfc5990.checked : Rfc5990.standard.ok = true := by decide +kernel

end Std
end Verif
