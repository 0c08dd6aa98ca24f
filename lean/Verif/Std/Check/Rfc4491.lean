import Verif.Std.Rfc4491
import Verif.Asn1.Grade

/-! The grades of the classes of rfc4491.py, checked (generated by tools/stdgen.py). -/

set_option maxRecDepth 100000

namespace Verif
namespace Std

theorem Rfc4491.checked : Rfc4491.standard.ok = true := by decide +kernel

end Std
end Verif
