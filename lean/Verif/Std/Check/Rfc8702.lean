import Verif.Std.Rfc8702
import Verif.Asn1.Grade

/-! The grades of the classes of rfc8702.py, checked (generated by tools/stdgen.py). -/

set_option maxRecDepth 100000

namespace Verif
namespace Std

theorem Rfc8702.checked : Rfc8702.standard.ok = true := by decide +kernel

end Std
end Verif
