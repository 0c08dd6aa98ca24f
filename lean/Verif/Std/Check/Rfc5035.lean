import Verif.Std.Rfc5035
import Verif.Asn1.Grade

/-! The grades of the classes of rfc5035.py, checked (generated by tools/stdgen.py). -/

set_option maxRecDepth 100000

namespace Verif
namespace Std

theorem Rfc5035.checked : Rfc5035.standard.ok = true := by decide +kernel

end Std
end Verif
