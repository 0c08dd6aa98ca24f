import Verif.Std.Rfc3125
import Verif.Asn1.Grade

/-! The grades of the classes of rfc3125.py, checked (generated by tools/stdgen.py). -/

set_option maxRecDepth 100000

namespace Verif
namespace Std

theorem Rfc3125.checked : Rfc3125.standard.ok = true := by decide +kernel

end Std
end Verif
