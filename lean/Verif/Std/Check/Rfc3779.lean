import Verif.Std.Rfc3779
import Verif.Asn1.Grade

/-! The grades of the classes of rfc3779.py, checked (generated by tools/stdgen.py). -/

set_option maxRecDepth 100000

namespace Verif
namespace Std

theorem Rfc3779.checked : Rfc3779.standard.ok = true := by decide +kernel

end Std
end Verif
