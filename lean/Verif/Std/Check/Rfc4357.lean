import Verif.Std.Rfc4357
import Verif.Asn1.Grade

/-! The grades of the classes of rfc4357.py, checked (generated by tools/stdgen.py). -/

set_option maxRecDepth 100000

namespace Verif
namespace Std

theorem Rfc4357.checked : Rfc4357.standard.ok = true := by decide +kernel

end Std
end Verif
