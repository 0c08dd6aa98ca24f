import Verif.Std.Rfc2876
import Verif.Asn1.Grade

/-! The grades of the classes of rfc2876.py, checked (generated by tools/stdgen.py). -/

set_option maxRecDepth 100000

namespace Verif
namespace Std

theorem Rfc2876.checked : Rfc2876.standard.ok = true := by decide +kernel

end Std
end Verif
