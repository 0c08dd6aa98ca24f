import Verif.Std.Rfc8018
import Verif.Asn1.Grade

/-! The grades of the classes of rfc8018.py, checked (generated by tools/stdgen.py). -/

set_option maxRecDepth 100000

namespace Verif
namespace Std

theorem Rfc8018.checked : Rfc8018.standard.ok = true := by decide +kernel

end Std
end Verif
