import Verif.Std.Rfc6211
import Verif.Asn1.Grade

/-! The grades of the classes of rfc6211.py, checked (generated by tools/stdgen.py). -/

set_option maxRecDepth 100000

namespace Verif
namespace Std

theorem Rfc6211.checked : Rfc6211.standard.ok = true := by decide +kernel

end Std
end Verif
