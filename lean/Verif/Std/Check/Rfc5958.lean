import Verif.Std.Rfc5958
import Verif.Asn1.Grade

/-! The grades of the classes of rfc5958.py, checked (generated by tools/stdgen.py). -/

set_option maxRecDepth 100000

namespace Verif
namespace Std

theorem Rfc5958.checked : Rfc5958.standard.ok = true := by decide +kernel

end Std
end Verif
