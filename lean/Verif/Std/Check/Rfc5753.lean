import Verif.Std.Rfc5753
import Verif.Asn1.Grade

/-! The grades of the classes of rfc5753.py, checked (generated by tools/stdgen.py). -/

set_option maxRecDepth 100000

namespace Verif
namespace Std

theorem Rfc5753.checked : Rfc5753.standard.ok = true := by decide +kernel

end Std
end Verif
