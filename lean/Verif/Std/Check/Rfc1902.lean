import Verif.Std.Rfc1902
import Verif.Asn1.Grade

/-! The grades of the classes of rfc1902.py, checked (generated by tools/stdgen.py). -/

set_option maxRecDepth 100000

namespace Verif
namespace Std

theorem Rfc1902.checked : Rfc1902.standard.ok = true := by decide +kernel

end Std
end Verif
