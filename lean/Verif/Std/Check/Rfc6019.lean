import Verif.Std.Rfc6019
import Verif.Asn1.Grade

/-! The grades of the classes of rfc6019.py, checked (generated by tools/stdgen.py). -/

set_option maxRecDepth 100000

namespace Verif
namespace Std

theorem Rfc6019.checked : Rfc6019.standard.ok = true := by decide +kernel

end Std
end Verif
