import Verif.Std.Rfc5917
import Verif.Asn1.Grade

/-! The grades of the classes of rfc5917.py, checked (generated by tools/stdgen.py). -/

set_option maxRecDepth 100000

namespace Verif
namespace Std

theorem Rfc5917.checked : Rfc5917.standard.ok = true := by decide +kernel

end Std
end Verif
