import Verif.Std.Rfc3161
import Verif.Asn1.Grade

/-! The grades of the classes of rfc3161.py, checked (generated by tools/stdgen.py). -/

set_option maxRecDepth 100000

namespace Verif
namespace Std

theorem Rfc3161.checked : Rfc3161.standard.ok = true := by decide +kernel

end Std
end Verif
