import Verif.Std.Rfc6960
import Verif.Asn1.Grade

/-! The grades of the classes of rfc6960.py, checked (generated by tools/stdgen.py). -/

set_option maxRecDepth 100000

namespace Verif
namespace Std

theorem Rfc6960.checked : Rfc6960.standard.ok = true := by decide +kernel

end Std
end Verif
