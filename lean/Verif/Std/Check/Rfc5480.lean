import Verif.Std.Rfc5480
import Verif.Asn1.Grade

/-! The grades of the classes of rfc5480.py, checked (generated by tools/stdgen.py). -/

set_option maxRecDepth 100000

namespace Verif
namespace Std

theorem Rfc5480.checked : Rfc5480.standard.ok = true := by decide +kernel

end Std
end Verif
