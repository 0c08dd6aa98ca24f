import Verif.Std.Rfc3279
import Verif.Asn1.Grade

/-! The grades of the classes of rfc3279.py, checked (generated by tools/stdgen.py). -/

set_option maxRecDepth 100000

namespace Verif
namespace Std

theorem Rfc3279.checked : Rfc3279.standard.ok = true := by decide +kernel

end Std
end Verif
