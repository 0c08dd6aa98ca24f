import Verif.Std.Rfc6487
import Verif.Asn1.Grade

/-! The grades of the classes of rfc6487.py, checked (generated by tools/stdgen.py). -/

set_option maxRecDepth 100000

namespace Verif
namespace Std

theorem Rfc6487.checked : Rfc6487.standard.ok = true := by decide +kernel

end Std
end Verif
