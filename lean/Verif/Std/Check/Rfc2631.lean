import Verif.Std.Rfc2631
import Verif.Asn1.Grade

/-! The grades of the classes of rfc2631.py, checked (generated by tools/stdgen.py). -/

set_option maxRecDepth 100000

namespace Verif
namespace Std

theorem Rfc2631.checked : Rfc2631.standard.ok = true := by decide +kernel

end Std
end Verif
