import Verif.Std.Rfc6486
import Verif.Asn1.Grade

/-! The grades of the classes of rfc6486.py, checked (generated by tools/stdgen.py). -/

set_option maxRecDepth 100000

namespace Verif
namespace Std

theorem Rfc6486.checked : Rfc6486.standard.ok = true := by decide +kernel

end Std
end Verif
