import Verif.Std.Rfc7296
import Verif.Asn1.Grade

/-! The grades of the classes of rfc7296.py, checked (generated by tools/stdgen.py). -/

set_option maxRecDepth 100000

namespace Verif
namespace Std

theorem Rfc7296.checked : Rfc7296.standard.ok = true := by decide +kernel

end Std
end Verif
