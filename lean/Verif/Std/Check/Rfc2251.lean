import Verif.Std.Rfc2251
import Verif.Asn1.Grade

/-! The grades of the classes of rfc2251.py, checked (generated by tools/stdgen.py). -/

set_option maxRecDepth 100000

namespace Verif
namespace Std

theorem Rfc2251.checked : Rfc2251.standard.ok = true := by decide +kernel

end Std
end Verif
