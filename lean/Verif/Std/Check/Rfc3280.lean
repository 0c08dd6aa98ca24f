import Verif.Std.Rfc3280
import Verif.Asn1.Grade

/-! The grades of the classes of rfc3280.py, checked (generated by tools/stdgen.py). -/

set_option maxRecDepth 100000

namespace Verif
namespace Std

theorem Rfc3280.checked : Rfc3280.standard.ok = true := by decide +kernel

end Std
end Verif
