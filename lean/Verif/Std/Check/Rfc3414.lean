import Verif.Std.Rfc3414
import Verif.Asn1.Grade

/-! The grades of the classes of rfc3414.py, checked (generated by tools/stdgen.py). -/

set_option maxRecDepth 100000

namespace Verif
namespace Std

theorem Rfc3414.checked : Rfc3414.standard.ok = true := by decide +kernel

end Std
end Verif
