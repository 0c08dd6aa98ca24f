import Verif.Built.Rfc1157
import Verif.Asn1.Built

/-! The descriptions of the classes of rfc1157.py, checked (generated by tools/builtgen.py). -/

set_option maxRecDepth 100000

namespace Verif
namespace Built

theorem Rfc1157.checked : description.Ok := ⟨rfl, by decide +kernel⟩

end Built
end Verif
