import Verif.Std.Rfc5940
import Verif.Asn1.Grade

/-! The grades of the classes of rfc5940.py, checked (generated by tools/stdgen.py). -/

set_option maxRecDepth 100000

namespace Verif
namespace Std

theorem Rfc5940.checked : Rfc5940.standard.ok = true := by decide +kernel

end Std
end Verif
