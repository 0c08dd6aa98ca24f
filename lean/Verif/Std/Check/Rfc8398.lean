import Verif.Std.Rfc8398
import Verif.Asn1.Grade

/-! The grades of the classes of rfc8398.py, checked (generated by tools/stdgen.py). -/

set_option maxRecDepth 100000

namespace Verif
namespace Std

theorem Rfc8398.checked : Rfc8398.standard.ok = true := by decide +kernel

end Std
end Verif
