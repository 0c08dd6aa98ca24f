import Verif.Built.Rfc2985
import Verif.Asn1.Built

/-! The descriptions of the classes of rfc2985.py, checked (generated by tools/builtgen.py). -/

set_option maxRecDepth 100000

namespace Verif
namespace Built

theorem Rfc2985.checked : description.Ok := ⟨rfl, by decide +kernel⟩

end Built
end Verif
