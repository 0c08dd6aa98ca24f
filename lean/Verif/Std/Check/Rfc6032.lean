import Verif.Std.Rfc6032
import Verif.Asn1.Grade

/-! The grades of the classes of rfc6032.py, checked (generated by tools/stdgen.py). -/

set_option maxRecDepth 100000

namespace Verif
namespace Std

theorem Rfc6032.checked : Rfc6032.standard.ok = true := by decide +kernel

end Std
end Verif
