import Verif.Std.Rfc3274
import Verif.Asn1.Grade

/-! The grades of the classes of rfc3274.py, checked (generated by tools/stdgen.py). -/

set_option maxRecDepth 100000

namespace Verif
namespace Std

theorem Rfc3274.checked : Rfc3274.standard.ok = true := by decide +kernel

end Std
end Verif
