import Verif.Std.Rfc7030
import Verif.Asn1.Grade

/-! The grades of the classes of rfc7030.py, checked (generated by tools/stdgen.py). -/

set_option maxRecDepth 100000

namespace Verif
namespace Std

theorem Rfc7030.checked : Rfc7030.standard.ok = true := by decide +kernel

end Std
end Verif
