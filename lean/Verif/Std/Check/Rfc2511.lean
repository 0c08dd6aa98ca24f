import Verif.Std.Rfc2511
import Verif.Asn1.Grade

/-! The grades of the classes of rfc2511.py, checked (generated by tools/stdgen.py). -/

set_option maxRecDepth 100000

namespace Verif
namespace Std

theorem Rfc2511.checked : Rfc2511.standard.ok = true := by decide +kernel

end Std
end Verif
