import Verif.Std.Rfc3739
import Verif.Asn1.Grade

/-! The grades of the classes of rfc3739.py, checked (generated by tools/stdgen.py). -/

set_option maxRecDepth 100000

namespace Verif
namespace Std

theorem Rfc3739.checked : Rfc3739.standard.ok = true := by decide +kernel

end Std
end Verif
