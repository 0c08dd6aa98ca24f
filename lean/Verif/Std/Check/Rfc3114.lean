import Verif.Std.Rfc3114
import Verif.Asn1.Grade

/-! The grades of the classes of rfc3114.py, checked (generated by tools/stdgen.py). -/

set_option maxRecDepth 100000

namespace Verif
namespace Std

theorem Rfc3114.checked : Rfc3114.standard.ok = true := by decide +kernel

end Std
end Verif
