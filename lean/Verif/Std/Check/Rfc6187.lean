import Verif.Std.Rfc6187
import Verif.Asn1.Grade

/-! The grades of the classes of rfc6187.py, checked (generated by tools/stdgen.py). -/

set_option maxRecDepth 100000

namespace Verif
namespace Std

theorem Rfc6187.checked : Rfc6187.standard.ok = true := by decide +kernel

end Std
end Verif
