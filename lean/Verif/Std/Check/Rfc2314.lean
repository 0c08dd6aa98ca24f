import Verif.Std.Rfc2314
import Verif.Asn1.Grade

/-! The grades of the classes of rfc2314.py, checked (generated by tools/stdgen.py). -/

set_option maxRecDepth 100000

namespace Verif
namespace Std

theorem Rfc2314.checked : Rfc2314.standard.ok = true := by decide +kernel

end Std
end Verif
