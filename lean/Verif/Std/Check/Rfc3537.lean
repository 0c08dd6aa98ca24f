import Verif.Std.Rfc3537
import Verif.Asn1.Grade

/-! The grades of the classes of rfc3537.py, checked (generated by tools/stdgen.py). -/

set_option maxRecDepth 100000

namespace Verif
namespace Std

theorem Rfc3537.checked : Rfc3537.standard.ok = true := by decide +kernel

end Std
end Verif
