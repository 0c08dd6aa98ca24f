import Verif.Std.Rfc7906
import Verif.Asn1.Grade

/-! The grades of the classes of rfc7906.py, checked (generated by tools/stdgen.py). -/

set_option maxRecDepth 100000

namespace Verif
namespace Std

theorem Rfc7906.checked : Rfc7906.standard.ok = true := by decide +kernel

end Std
end Verif
