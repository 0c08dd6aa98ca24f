import Verif.Std.Rfc7292
import Verif.Asn1.Grade

/-! The grades of the classes of rfc7292.py, checked (generated by tools/stdgen.py). -/

set_option maxRecDepth 100000

namespace Verif
namespace Std

theorem Rfc7292.checked : Rfc7292.standard.ok = true := by decide +kernel

end Std
end Verif
