import Verif.Std.Rfc5916
import Verif.Asn1.Grade

/-! The grades of the classes of rfc5916.py, checked (generated by tools/stdgen.py). -/

set_option maxRecDepth 100000

namespace Verif
namespace Std

theorem Rfc5916.checked : Rfc5916.standard.ok = true := by decide +kernel

end Std
end Verif
