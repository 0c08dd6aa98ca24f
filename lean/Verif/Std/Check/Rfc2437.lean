import Verif.Std.Rfc2437
import Verif.Asn1.Grade

/-! The grades of the classes of rfc2437.py, checked (generated by tools/stdgen.py). -/

set_option maxRecDepth 100000

namespace Verif
namespace Std

theorem Rfc2437.checked : Rfc2437.standard.ok = true := by decide +kernel

end Std
end Verif
