import Verif.Std.Rfc6664
import Verif.Asn1.Grade

/-! The grades of the classes of rfc6664.py, checked (generated by tools/stdgen.py). -/

set_option maxRecDepth 100000

namespace Verif
namespace Std

theorem Rfc6664.checked : Rfc6664.standard.ok = true := by decide +kernel

end Std
end Verif
