import Verif.Std.Rfc2634
import Verif.Asn1.Grade

/-! The grades of the classes of rfc2634.py, checked (generated by tools/stdgen.py). -/

set_option maxRecDepth 100000

namespace Verif
namespace Std

theorem Rfc2634.checked : Rfc2634.standard.ok = true := by decide +kernel

end Std
end Verif
