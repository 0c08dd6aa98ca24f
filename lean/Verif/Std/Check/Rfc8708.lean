import Verif.Std.Rfc8708
import Verif.Asn1.Grade

/-! The grades of the classes of rfc8708.py, checked (generated by tools/stdgen.py). -/

set_option maxRecDepth 100000

namespace Verif
namespace Std

theorem Rfc8708.checked : Rfc8708.standard.ok = true := by decide +kernel

end Std
end Verif
