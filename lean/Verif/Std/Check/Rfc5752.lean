import Verif.Std.Rfc5752
import Verif.Asn1.Grade

/-! The grades of the classes of rfc5752.py, checked (generated by tools/stdgen.py). -/

set_option maxRecDepth 100000

namespace Verif
namespace Std

theorem Rfc5752.checked : Rfc5752.standard.ok = true := by decide +kernel

end Std
end Verif
