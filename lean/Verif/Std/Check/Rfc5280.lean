import Verif.Std.Rfc5280
import Verif.Asn1.Grade

/-! The grades of the classes of rfc5280.py, checked (generated by tools/stdgen.py). -/

set_option maxRecDepth 100000

namespace Verif
namespace Std

theorem Rfc5280.checked : Rfc5280.standard.ok = true := by decide +kernel

end Std
end Verif
