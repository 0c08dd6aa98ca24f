import Verif.Std.Rfc8418
import Verif.Asn1.Grade

/-! The grades of the classes of rfc8418.py, checked (generated by tools/stdgen.py). -/

set_option maxRecDepth 100000

namespace Verif
namespace Std

theorem Rfc8418.checked : Rfc8418.standard.ok = true := by decide +kernel

end Std
end Verif
