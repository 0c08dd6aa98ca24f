import Verif.Std.Rfc1157
import Verif.Asn1.Grade

/-! The grades of the classes of rfc1157.py, checked (generated by tools/stdgen.py). -/

set_option maxRecDepth 100000

namespace Verif
namespace Std

theorem Rfc1157.checked : Rfc1157.standard.ok = true := by decide +kernel

end Std
end Verif
