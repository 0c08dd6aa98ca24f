import Verif.Std.Rfc8479
import Verif.Asn1.Grade

/-! The grades of the classes of rfc8479.py, checked (generated by tools/stdgen.py). -/

set_option maxRecDepth 100000

namespace Verif
namespace Std

theorem Rfc8479.checked : Rfc8479.standard.ok = true := by decide +kernel

end Std
end Verif
