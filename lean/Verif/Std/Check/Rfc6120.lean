import Verif.Std.Rfc6120
import Verif.Asn1.Grade

/-! The grades of the classes of rfc6120.py, checked (generated by tools/stdgen.py). -/

set_option maxRecDepth 100000

namespace Verif
namespace Std

theorem Rfc6120.checked : Rfc6120.standard.ok = true := by decide +kernel

end Std
end Verif
