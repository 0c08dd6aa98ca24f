import Verif.Std.Rfc6402
import Verif.Asn1.Grade

/-! The grades of the classes of rfc6402.py, checked (generated by tools/stdgen.py). -/

set_option maxRecDepth 100000

namespace Verif
namespace Std

theorem Rfc6402.checked : Rfc6402.standard.ok = true := by decide +kernel

end Std
end Verif
