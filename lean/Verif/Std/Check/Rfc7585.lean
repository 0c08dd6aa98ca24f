import Verif.Std.Rfc7585
import Verif.Asn1.Grade

/-! The grades of the classes of rfc7585.py, checked (generated by tools/stdgen.py). -/

set_option maxRecDepth 100000

namespace Verif
namespace Std

theorem Rfc7585.checked : Rfc7585.standard.ok = true := by decide +kernel

end Std
end Verif
