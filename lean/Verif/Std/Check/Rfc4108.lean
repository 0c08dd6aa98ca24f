import Verif.Std.Rfc4108
import Verif.Asn1.Grade

/-! The grades of the classes of rfc4108.py, checked (generated by tools/stdgen.py). -/

set_option maxRecDepth 100000

namespace Verif
namespace Std

theorem Rfc4108.checked : Rfc4108.standard.ok = true := by decide +kernel

end Std
end Verif
