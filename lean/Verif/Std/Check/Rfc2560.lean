import Verif.Std.Rfc2560
import Verif.Asn1.Grade

/-! The grades of the classes of rfc2560.py, checked (generated by tools/stdgen.py). -/

set_option maxRecDepth 100000

namespace Verif
namespace Std

theorem Rfc2560.checked : Rfc2560.standard.ok = true := by decide +kernel

end Std
end Verif
