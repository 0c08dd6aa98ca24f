import Verif.Std.Rfc4055
import Verif.Asn1.Grade

/-! The grades of the classes of rfc4055.py, checked (generated by tools/stdgen.py). -/

set_option maxRecDepth 100000

namespace Verif
namespace Std

theorem Rfc4055.checked : Rfc4055.standard.ok = true := by decide +kernel

end Std
end Verif
