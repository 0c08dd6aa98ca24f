import Verif.Std.Rfc5755
import Verif.Asn1.Grade

/-! The grades of the classes of rfc5755.py, checked (generated by tools/stdgen.py). -/

set_option maxRecDepth 100000

namespace Verif
namespace Std

theorem Rfc5755.checked : Rfc5755.standard.ok = true := by decide +kernel

end Std
end Verif
