import Verif.Std.Rfc3565
import Verif.Asn1.Grade

/-! The grades of the classes of rfc3565.py, checked (generated by tools/stdgen.py). -/

set_option maxRecDepth 100000

namespace Verif
namespace Std

theorem Rfc3565.checked : Rfc3565.standard.ok = true := by decide +kernel

end Std
end Verif
