import Verif.Std.Rfc8360
import Verif.Asn1.Grade

/-! The grades of the classes of rfc8360.py, checked (generated by tools/stdgen.py). -/

set_option maxRecDepth 100000

namespace Verif
namespace Std

theorem Rfc8360.checked : Rfc8360.standard.ok = true := by decide +kernel

end Std
end Verif
