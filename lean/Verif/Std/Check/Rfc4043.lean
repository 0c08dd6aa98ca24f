import Verif.Std.Rfc4043
import Verif.Asn1.Grade

/-! The grades of the classes of rfc4043.py, checked (generated by tools/stdgen.py). -/

set_option maxRecDepth 100000

namespace Verif
namespace Std

theorem Rfc4043.checked : Rfc4043.standard.ok = true := by decide +kernel

end Std
end Verif
