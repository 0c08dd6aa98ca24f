import Verif.Std.Rfc7894
import Verif.Asn1.Grade

/-! The grades of the classes of rfc7894.py, checked (generated by tools/stdgen.py). -/

set_option maxRecDepth 100000

namespace Verif
namespace Std

theorem Rfc7894.checked : Rfc7894.standard.ok = true := by decide +kernel

end Std
end Verif
