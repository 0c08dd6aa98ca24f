import Verif.Std.Rfc1155
import Verif.Asn1.Grade

/-! The grades of the classes of rfc1155.py, checked (generated by tools/stdgen.py). -/

set_option maxRecDepth 100000

namespace Verif
namespace Std

theorem Rfc1155.checked : Rfc1155.standard.ok = true := by decide +kernel

end Std
end Verif
