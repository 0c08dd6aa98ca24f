import Verif.Std.Rfc8209
import Verif.Asn1.Grade

/-! The grades of the classes of rfc8209.py, checked (generated by tools/stdgen.py). -/

set_option maxRecDepth 100000

namespace Verif
namespace Std

theorem Rfc8209.checked : Rfc8209.standard.ok = true := by decide +kernel

end Std
end Verif
