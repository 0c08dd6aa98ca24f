import Verif.Std.Rfc3770
import Verif.Asn1.Grade

/-! The grades of the classes of rfc3770.py, checked (generated by tools/stdgen.py). -/

set_option maxRecDepth 100000

namespace Verif
namespace Std

theorem Rfc3770.checked : Rfc3770.standard.ok = true := by decide +kernel

end Std
end Verif
