import Verif.Std.Rfc6010
import Verif.Asn1.Grade

/-! The grades of the classes of rfc6010.py, checked (generated by tools/stdgen.py). -/

set_option maxRecDepth 100000

namespace Verif
namespace Std

theorem Rfc6010.checked : Rfc6010.standard.ok = true := by decide +kernel

end Std
end Verif
