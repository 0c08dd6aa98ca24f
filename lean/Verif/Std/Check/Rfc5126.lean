import Verif.Std.Rfc5126
import Verif.Asn1.Grade

/-! The grades of the classes of rfc5126.py, checked (generated by tools/stdgen.py). -/

set_option maxRecDepth 100000

namespace Verif
namespace Std

theorem Rfc5126.checked : Rfc5126.standard.ok = true := by decide +kernel

end Std
end Verif
