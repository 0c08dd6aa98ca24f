import Verif.Std.Rfc8358
import Verif.Asn1.Grade

/-! The grades of the classes of rfc8358.py, checked (generated by tools/stdgen.py). -/

set_option maxRecDepth 100000

namespace Verif
namespace Std

theorem Rfc8358.checked : Rfc8358.standard.ok = true := by decide +kernel

end Std
end Verif
