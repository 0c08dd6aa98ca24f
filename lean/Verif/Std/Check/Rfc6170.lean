import Verif.Std.Rfc6170
import Verif.Asn1.Grade

/-! The grades of the classes of rfc6170.py, checked (generated by tools/stdgen.py). -/

set_option maxRecDepth 100000

namespace Verif
namespace Std

theorem Rfc6170.checked : Rfc6170.standard.ok = true := by decide +kernel

end Std
end Verif
