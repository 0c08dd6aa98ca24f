import Verif.Std.Rfc4985
import Verif.Asn1.Grade

/-! The grades of the classes of rfc4985.py, checked (generated by tools/stdgen.py). -/

set_option maxRecDepth 100000

namespace Verif
namespace Std

theorem Rfc4985.checked : Rfc4985.standard.ok = true := by decide +kernel

end Std
end Verif
