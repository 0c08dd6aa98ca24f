import Verif.Std.Rfc4073
import Verif.Asn1.Grade

/-! The grades of the classes of rfc4073.py, checked (generated by tools/stdgen.py). -/

set_option maxRecDepth 100000

namespace Verif
namespace Std

theorem Rfc4073.checked : Rfc4073.standard.ok = true := by decide +kernel

end Std
end Verif
