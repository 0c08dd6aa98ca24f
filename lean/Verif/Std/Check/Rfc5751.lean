import Verif.Std.Rfc5751
import Verif.Asn1.Grade

/-! The grades of the classes of rfc5751.py, checked (generated by tools/stdgen.py). -/

set_option maxRecDepth 100000

namespace Verif
namespace Std

theorem Rfc5751.checked : Rfc5751.standard.ok = true := by decide +kernel

end Std
end Verif
