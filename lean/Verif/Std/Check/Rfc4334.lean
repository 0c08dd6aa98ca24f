import Verif.Std.Rfc4334
import Verif.Asn1.Grade

/-! The grades of the classes of rfc4334.py, checked (generated by tools/stdgen.py). -/

set_option maxRecDepth 100000

namespace Verif
namespace Std

theorem Rfc4334.checked : Rfc4334.standard.ok = true := by decide +kernel

end Std
end Verif
