import Verif.Std.Rfc5084
import Verif.Asn1.Grade

/-! The grades of the classes of rfc5084.py, checked (generated by tools/stdgen.py). -/

set_option maxRecDepth 100000

namespace Verif
namespace Std

theorem Rfc5084.checked : Rfc5084.standard.ok = true := by decide +kernel

end Std
end Verif
