import Verif.Std.Rfc8494
import Verif.Asn1.Grade

/-! The grades of the classes of rfc8494.py, checked (generated by tools/stdgen.py). -/

set_option maxRecDepth 100000

namespace Verif
namespace Std

theorem Rfc8494.checked : Rfc8494.standard.ok = true := by decide +kernel

end Std
end Verif
