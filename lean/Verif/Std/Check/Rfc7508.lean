import Verif.Std.Rfc7508
import Verif.Asn1.Grade

/-! The grades of the classes of rfc7508.py, checked (generated by tools/stdgen.py). -/

set_option maxRecDepth 100000

namespace Verif
namespace Std

theorem Rfc7508.checked : Rfc7508.standard.ok = true := by decide +kernel

end Std
end Verif
