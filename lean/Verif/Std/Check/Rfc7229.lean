import Verif.Std.Rfc7229
import Verif.Asn1.Grade

/-! The grades of the classes of rfc7229.py, checked (generated by tools/stdgen.py). -/

set_option maxRecDepth 100000

namespace Verif
namespace Std

theorem Rfc7229.checked : Rfc7229.standard.ok = true := by decide +kernel

end Std
end Verif
