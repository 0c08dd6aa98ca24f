import Verif.Std.Rfc7633
import Verif.Asn1.Grade

/-! The grades of the classes of rfc7633.py, checked (generated by tools/stdgen.py). -/

set_option maxRecDepth 100000

namespace Verif
namespace Std

theorem Rfc7633.checked : Rfc7633.standard.ok = true := by decide +kernel

end Std
end Verif
