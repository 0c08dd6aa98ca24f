import Verif.Std.Rfc4010
import Verif.Asn1.Grade

/-! The grades of the classes of rfc4010.py, checked (generated by tools/stdgen.py). -/

set_option maxRecDepth 100000

namespace Verif
namespace Std

theorem Rfc4010.checked : Rfc4010.standard.ok = true := by decide +kernel

end Std
end Verif
