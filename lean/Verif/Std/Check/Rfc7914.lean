import Verif.Std.Rfc7914
import Verif.Asn1.Grade

/-! The grades of the classes of rfc7914.py, checked (generated by tools/stdgen.py). -/

set_option maxRecDepth 100000

namespace Verif
namespace Std

theorem Rfc7914.checked : Rfc7914.standard.ok = true := by decide +kernel

end Std
end Verif
