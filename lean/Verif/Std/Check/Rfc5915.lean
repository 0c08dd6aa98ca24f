import Verif.Std.Rfc5915
import Verif.Asn1.Grade

/-! The grades of the classes of rfc5915.py, checked (generated by tools/stdgen.py). -/

set_option maxRecDepth 100000

namespace Verif
namespace Std

theorem Rfc5915.checked : Rfc5915.standard.ok = true := by decide +kernel

end Std
end Verif
