import Verif.Std.Rfc1905
import Verif.Asn1.Grade

/-! The grades of the classes of rfc1905.py, checked (generated by tools/stdgen.py). -/

set_option maxRecDepth 100000

namespace Verif
namespace Std

theorem Rfc1905.checked : Rfc1905.standard.ok = true := by decide +kernel

end Std
end Verif
