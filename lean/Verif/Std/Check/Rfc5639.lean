import Verif.Std.Rfc5639
import Verif.Asn1.Grade

/-! The grades of the classes of rfc5639.py, checked (generated by tools/stdgen.py). -/

set_option maxRecDepth 100000

namespace Verif
namespace Std

theorem Rfc5639.checked : Rfc5639.standard.ok = true := by decide +kernel

end Std
end Verif
