import Verif.Std.Rfc3657
import Verif.Asn1.Grade

/-! The grades of the classes of rfc3657.py, checked (generated by tools/stdgen.py). -/

set_option maxRecDepth 100000

namespace Verif
namespace Std

theorem Rfc3657.checked : Rfc3657.standard.ok = true := by decide +kernel

end Std
end Verif
