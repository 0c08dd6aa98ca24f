import Verif.Std.Rfc5649
import Verif.Asn1.Grade

/-! The grades of the classes of rfc5649.py, checked (generated by tools/stdgen.py). -/

set_option maxRecDepth 100000

namespace Verif
namespace Std

theorem Rfc5649.checked : Rfc5649.standard.ok = true := by decide +kernel

end Std
end Verif
