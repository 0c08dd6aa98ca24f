import Verif.Std.Rfc8520
import Verif.Asn1.Grade

/-! The grades of the classes of rfc8520.py, checked (generated by tools/stdgen.py). -/

set_option maxRecDepth 100000

namespace Verif
namespace Std

theorem Rfc8520.checked : Rfc8520.standard.ok = true := by decide +kernel

end Std
end Verif
