import Verif.Std.Rfc4476
import Verif.Asn1.Grade

/-! The grades of the classes of rfc4476.py, checked (generated by tools/stdgen.py). -/

set_option maxRecDepth 100000

namespace Verif
namespace Std

theorem Rfc4476.checked : Rfc4476.standard.ok = true := by decide +kernel

end Std
end Verif
