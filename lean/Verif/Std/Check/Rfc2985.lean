import Verif.Std.Rfc2985
import Verif.Asn1.Grade

/-! The grades of the classes of rfc2985.py, checked (generated by tools/stdgen.py). -/

set_option maxRecDepth 100000

namespace Verif
namespace Std

theorem Rfc2985.checked : Rfc2985.standard.ok = true := by decide +kernel

end Std
end Verif
