import Verif.Std.Rfc8769
import Verif.Asn1.Grade

/-! The grades of the classes of rfc8769.py, checked (generated by tools/stdgen.py). -/

set_option maxRecDepth 100000

namespace Verif
namespace Std

theorem Rfc8769.checked : Rfc8769.standard.ok = true := by decide +kernel

end Std
end Verif
