import Verif.Std.Rfc4683
import Verif.Asn1.Grade

/-! The grades of the classes of rfc4683.py, checked (generated by tools/stdgen.py). -/

set_option maxRecDepth 100000

namespace Verif
namespace Std

theorem Rfc4683.checked : Rfc4683.standard.ok = true := by decide +kernel

end Std
end Verif
