import Verif.Std.Rfc8226
import Verif.Asn1.Grade

/-! The grades of the classes of rfc8226.py, checked (generated by tools/stdgen.py). -/

set_option maxRecDepth 100000

namespace Verif
namespace Std

theorem Rfc8226.checked : Rfc8226.standard.ok = true := by decide +kernel

end Std
end Verif
