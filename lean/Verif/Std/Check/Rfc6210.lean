import Verif.Std.Rfc6210
import Verif.Asn1.Grade

/-! The grades of the classes of rfc6210.py, checked (generated by tools/stdgen.py). -/

set_option maxRecDepth 100000

namespace Verif
namespace Std

theorem Rfc6210.checked : Rfc6210.standard.ok = true := by decide +kernel

end Std
end Verif
