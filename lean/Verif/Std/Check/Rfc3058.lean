import Verif.Std.Rfc3058
import Verif.Asn1.Grade

/-! The grades of the classes of rfc3058.py, checked (generated by tools/stdgen.py). -/

set_option maxRecDepth 100000

namespace Verif
namespace Std

theorem Rfc3058.checked : Rfc3058.standard.ok = true := by decide +kernel

end Std
end Verif
