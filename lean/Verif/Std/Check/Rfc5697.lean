import Verif.Std.Rfc5697
import Verif.Asn1.Grade

/-! The grades of the classes of rfc5697.py, checked (generated by tools/stdgen.py). -/

set_option maxRecDepth 100000

namespace Verif
namespace Std

theorem Rfc5697.checked : Rfc5697.standard.ok = true := by decide +kernel

end Std
end Verif
