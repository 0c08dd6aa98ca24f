import Verif.Std.Rfc2459
import Verif.Asn1.Grade

/-! The grades of the classes of rfc2459.py, checked (generated by tools/stdgen.py). -/

set_option maxRecDepth 100000

namespace Verif
namespace Std

theorem Rfc2459.checked : Rfc2459.standard.ok = true := by decide +kernel

end Std
end Verif
