import Verif.Std.Rfc1901
import Verif.Asn1.Grade

/-! The grades of the classes of rfc1901.py, checked (generated by tools/stdgen.py). -/

set_option maxRecDepth 100000

namespace Verif
namespace Std

theorem Rfc1901.checked : Rfc1901.standard.ok = true := by decide +kernel

end Std
end Verif
