import Verif.Std.Rfc5275
import Verif.Asn1.Grade

/-! The grades of the classes of rfc5275.py, checked (generated by tools/stdgen.py). -/

set_option maxRecDepth 100000

namespace Verif
namespace Std

theorem Rfc5275.checked : Rfc5275.standard.ok = true := by decide +kernel

end Std
end Verif
