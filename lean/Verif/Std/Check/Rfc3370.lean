import Verif.Std.Rfc3370
import Verif.Asn1.Grade

/-! The grades of the classes of rfc3370.py, checked (generated by tools/stdgen.py). -/

set_option maxRecDepth 100000

namespace Verif
namespace Std

theorem Rfc3370.checked : Rfc3370.standard.ok = true := by decide +kernel

end Std
end Verif
