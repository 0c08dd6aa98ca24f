import Verif.Std.Rfc8619
import Verif.Asn1.Grade

/-! The grades of the classes of rfc8619.py, checked (generated by tools/stdgen.py). -/

set_option maxRecDepth 100000

namespace Verif
namespace Std

theorem Rfc8619.checked : Rfc8619.standard.ok = true := by decide +kernel

end Std
end Verif
