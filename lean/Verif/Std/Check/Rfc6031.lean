import Verif.Std.Rfc6031
import Verif.Asn1.Grade

/-! The grades of the classes of rfc6031.py, checked (generated by tools/stdgen.py). -/

set_option maxRecDepth 100000

namespace Verif
namespace Std

theorem Rfc6031.checked : Rfc6031.standard.ok = true := by decide +kernel

end Std
end Verif
