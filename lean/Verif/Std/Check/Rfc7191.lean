import Verif.Std.Rfc7191
import Verif.Asn1.Grade

/-! The grades of the classes of rfc7191.py, checked (generated by tools/stdgen.py). -/

set_option maxRecDepth 100000

namespace Verif
namespace Std

theorem Rfc7191.checked : Rfc7191.standard.ok = true := by decide +kernel

end Std
end Verif
