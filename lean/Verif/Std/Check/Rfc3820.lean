import Verif.Std.Rfc3820
import Verif.Asn1.Grade

/-! The grades of the classes of rfc3820.py, checked (generated by tools/stdgen.py). -/

set_option maxRecDepth 100000

namespace Verif
namespace Std

theorem Rfc3820.checked : Rfc3820.standard.ok = true := by decide +kernel

end Std
end Verif
