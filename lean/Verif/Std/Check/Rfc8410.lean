import Verif.Std.Rfc8410
import Verif.Asn1.Grade

/-! The grades of the classes of rfc8410.py, checked (generated by tools/stdgen.py). -/

set_option maxRecDepth 100000

namespace Verif
namespace Std

theorem Rfc8410.checked : Rfc8410.standard.ok = true := by decide +kernel

end Std
end Verif
