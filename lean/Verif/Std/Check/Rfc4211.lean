import Verif.Std.Rfc4211
import Verif.Asn1.Grade

/-! The grades of the classes of rfc4211.py, checked (generated by tools/stdgen.py). -/

set_option maxRecDepth 100000

namespace Verif
namespace Std

theorem Rfc4211.checked : Rfc4211.standard.ok = true := by decide +kernel

end Std
end Verif
