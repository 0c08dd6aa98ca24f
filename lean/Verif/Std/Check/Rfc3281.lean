import Verif.Std.Rfc3281
import Verif.Asn1.Grade

/-! The grades of the classes of rfc3281.py, checked (generated by tools/stdgen.py). -/

set_option maxRecDepth 100000

namespace Verif
namespace Std

theorem Rfc3281.checked : Rfc3281.standard.ok = true := by decide +kernel

end Std
end Verif
