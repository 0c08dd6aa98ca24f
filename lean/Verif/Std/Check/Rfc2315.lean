import Verif.Std.Rfc2315
import Verif.Asn1.Grade

/-! The grades of the classes of rfc2315.py, checked (generated by tools/stdgen.py). -/

set_option maxRecDepth 100000

namespace Verif
namespace Std

theorem Rfc2315.checked : Rfc2315.standard.ok = true := by decide +kernel

end Std
end Verif
