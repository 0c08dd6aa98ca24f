import Verif.Std.Rfc7773
import Verif.Asn1.Grade

/-! The grades of the classes of rfc7773.py, checked (generated by tools/stdgen.py). -/

set_option maxRecDepth 100000

namespace Verif
namespace Std

theorem Rfc7773.checked : Rfc7773.standard.ok = true := by decide +kernel

end Std
end Verif
