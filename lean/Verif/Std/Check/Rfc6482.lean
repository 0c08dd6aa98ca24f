import Verif.Std.Rfc6482
import Verif.Asn1.Grade

/-! The grades of the classes of rfc6482.py, checked (generated by tools/stdgen.py). -/

set_option maxRecDepth 100000

namespace Verif
namespace Std

theorem Rfc6482.checked : Rfc6482.standard.ok = true := by decide +kernel

end Std
end Verif
