import Verif.Std.Rfc3709
import Verif.Asn1.Grade

/-! The grades of the classes of rfc3709.py, checked (generated by tools/stdgen.py). -/

set_option maxRecDepth 100000

namespace Verif
namespace Std

theorem Rfc3709.checked : Rfc3709.standard.ok = true := by decide +kernel

end Std
end Verif
