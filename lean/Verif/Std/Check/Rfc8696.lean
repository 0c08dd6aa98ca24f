import Verif.Std.Rfc8696
import Verif.Asn1.Grade

/-! The grades of the classes of rfc8696.py, checked (generated by tools/stdgen.py). -/

set_option maxRecDepth 100000

namespace Verif
namespace Std

theorem Rfc8696.checked : Rfc8696.standard.ok = true := by decide +kernel

end Std
end Verif
