import Verif.Std.Rfc4210
import Verif.Asn1.Grade

/-! The grades of the classes of rfc4210.py, checked (generated by tools/stdgen.py). -/

set_option maxRecDepth 100000

namespace Verif
namespace Std

theorem Rfc4210.checked : Rfc4210.standard.ok = true := by decide +kernel

end Std
end Verif
