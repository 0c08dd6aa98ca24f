import Verif.Std.Rfc3447
import Verif.Asn1.Grade

/-! The grades of the classes of rfc3447.py, checked (generated by tools/stdgen.py). -/

set_option maxRecDepth 100000

namespace Verif
namespace Std

theorem Rfc3447.checked : Rfc3447.standard.ok = true := by decide +kernel

end Std
end Verif
