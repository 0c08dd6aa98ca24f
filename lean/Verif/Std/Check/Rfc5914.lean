import Verif.Std.Rfc5914
import Verif.Asn1.Grade

/-! The grades of the classes of rfc5914.py, checked (generated by tools/stdgen.py). -/

set_option maxRecDepth 100000

namespace Verif
namespace Std

theorem Rfc5914.checked : Rfc5914.standard.ok = true := by decide +kernel

end Std
end Verif
