import Verif.Std.Rfc8649
import Verif.Asn1.Grade

/-! The grades of the classes of rfc8649.py, checked (generated by tools/stdgen.py). -/

set_option maxRecDepth 100000

namespace Verif
namespace Std

theorem Rfc8649.checked : Rfc8649.standard.ok = true := by decide +kernel

end Std
end Verif
