import Verif.Std.Rfc8419
import Verif.Asn1.Grade

/-! The grades of the classes of rfc8419.py, checked (generated by tools/stdgen.py). -/

set_option maxRecDepth 100000

namespace Verif
namespace Std

theorem Rfc8419.checked : Rfc8419.standard.ok = true := by decide +kernel

end Std
end Verif
