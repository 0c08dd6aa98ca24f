import Verif.Std.Rfc4387
import Verif.Asn1.Grade

/-! The grades of the classes of rfc4387.py, checked (generated by tools/stdgen.py). -/

set_option maxRecDepth 100000

namespace Verif
namespace Std

theorem Rfc4387.checked : Rfc4387.standard.ok = true := by decide +kernel

end Std
end Verif
