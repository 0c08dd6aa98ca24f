import Verif.Std.Rfc4490
import Verif.Asn1.Grade

/-! The grades of the classes of rfc4490.py, checked (generated by tools/stdgen.py). -/

set_option maxRecDepth 100000

namespace Verif
namespace Std

theorem Rfc4490.checked : Rfc4490.standard.ok = true := by decide +kernel

end Std
end Verif
