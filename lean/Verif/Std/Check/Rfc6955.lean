import Verif.Std.Rfc6955
import Verif.Asn1.Grade

/-! The grades of the classes of rfc6955.py, checked (generated by tools/stdgen.py). -/

set_option maxRecDepth 100000

namespace Verif
namespace Std

theorem Rfc6955.checked : Rfc6955.standard.ok = true := by decide +kernel

end Std
end Verif
