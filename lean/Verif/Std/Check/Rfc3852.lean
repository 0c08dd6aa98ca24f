import Verif.Std.Rfc3852
import Verif.Asn1.Grade

/-! The grades of the classes of rfc3852.py, checked (generated by tools/stdgen.py). -/

set_option maxRecDepth 100000

namespace Verif
namespace Std

theorem Rfc3852.checked : Rfc3852.standard.ok = true := by decide +kernel

end Std
end Verif
