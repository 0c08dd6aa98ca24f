import Verif.Std.Rfc3560
import Verif.Asn1.Grade

/-! The grades of the classes of rfc3560.py, checked (generated by tools/stdgen.py). -/

set_option maxRecDepth 100000

namespace Verif
namespace Std

theorem Rfc3560.checked : Rfc3560.standard.ok = true := by decide +kernel

end Std
end Verif
