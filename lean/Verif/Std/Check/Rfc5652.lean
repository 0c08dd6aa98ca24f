import Verif.Std.Rfc5652
import Verif.Asn1.Grade

/-! The grades of the classes of rfc5652.py, checked (generated by tools/stdgen.py). -/

set_option maxRecDepth 100000

namespace Verif
namespace Std

theorem Rfc5652.checked : Rfc5652.standard.ok = true := by decide +kernel

end Std
end Verif
