import Verif.Std.Rfc5208
import Verif.Asn1.Grade

/-! The grades of the classes of rfc5208.py, checked (generated by tools/stdgen.py). -/

set_option maxRecDepth 100000

namespace Verif
namespace Std

theorem Rfc5208.checked : Rfc5208.standard.ok = true := by decide +kernel

end Std
end Verif
