import Verif.Std.Rfc2986
import Verif.Asn1.Grade

/-! The grades of the classes of rfc2986.py, checked (generated by tools/stdgen.py). -/

set_option maxRecDepth 100000

namespace Verif
namespace Std

theorem Rfc2986.checked : Rfc2986.standard.ok = true := by decide +kernel

end Std
end Verif
