import Verif.Std.Rfc5913
import Verif.Asn1.Grade

/-! The grades of the classes of rfc5913.py, checked (generated by tools/stdgen.py). -/

set_option maxRecDepth 100000

namespace Verif
namespace Std

theorem Rfc5913.checked : Rfc5913.standard.ok = true := by decide +kernel

end Std
end Verif
