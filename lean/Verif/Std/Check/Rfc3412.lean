import Verif.Std.Rfc3412
import Verif.Asn1.Grade

/-! The grades of the classes of rfc3412.py, checked (generated by tools/stdgen.py). -/

set_option maxRecDepth 100000

namespace Verif
namespace Std

theorem Rfc3412.checked : Rfc3412.standard.ok = true := by decide +kernel

end Std
end Verif
