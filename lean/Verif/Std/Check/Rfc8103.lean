import Verif.Std.Rfc8103
import Verif.Asn1.Grade

/-! The grades of the classes of rfc8103.py, checked (generated by tools/stdgen.py). -/

set_option maxRecDepth 100000

namespace Verif
namespace Std

theorem Rfc8103.checked : Rfc8103.standard.ok = true := by decide +kernel

end Std
end Verif
