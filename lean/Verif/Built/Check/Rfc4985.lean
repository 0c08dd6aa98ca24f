import Verif.Built.Rfc4985
import Verif.Asn1.Built

/-! The descriptions of the classes of rfc4985.py, checked (generated by tools/builtgen.py). -/

set_option maxRecDepth 100000

namespace Verif
namespace Built

theorem Rfc4985.checked : description.Ok := ⟨rfl, by decide +kernel⟩

end Built
end Verif
