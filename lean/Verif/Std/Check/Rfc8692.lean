import Verif.Std.Rfc8692
import Verif.Asn1.Grade

/-! The grades of the classes of rfc8692.py, checked (generated by tools/stdgen.py). -/

set_option maxRecDepth 100000

namespace Verif
namespace Std

theorem Rfc8692.checked : Rfc8692.standard.ok = true := by decide +kernel

end Std
end Verif
