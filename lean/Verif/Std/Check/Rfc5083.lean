import Verif.Std.Rfc5083
import Verif.Asn1.Grade

/-! The grades of the classes of rfc5083.py, checked (generated by tools/stdgen.py). -/

set_option maxRecDepth 100000

namespace Verif
namespace Std

theorem Rfc5083.checked : Rfc5083.standard.ok = true := by decide +kernel

end Std
end Verif
