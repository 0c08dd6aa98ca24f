import Verif.Std.Rfc5934
import Verif.Asn1.Grade

/-! The grades of the classes of rfc5934.py, checked (generated by tools/stdgen.py). -/

set_option maxRecDepth 100000

namespace Verif
namespace Std

theorem Rfc5934.checked : Rfc5934.standard.ok = true := by decide +kernel

end Std
end Verif
