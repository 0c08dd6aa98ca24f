import Verif.Std.Rfc8017
import Verif.Asn1.Grade

/-! The grades of the classes of rfc8017.py, checked (generated by tools/stdgen.py). -/

set_option maxRecDepth 100000

namespace Verif
namespace Std

theorem Rfc8017.checked : Rfc8017.standard.ok = true := by decide +kernel

end Std
end Verif
