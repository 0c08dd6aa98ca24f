import Verif.Std.Rfc5924
import Verif.Asn1.Grade

/-! The grades of the classes of rfc5924.py, checked (generated by tools/stdgen.py). -/

set_option maxRecDepth 100000

namespace Verif
namespace Std

theorem Rfc5924.checked : Rfc5924.standard.ok = true := by decide +kernel

end Std
end Verif
