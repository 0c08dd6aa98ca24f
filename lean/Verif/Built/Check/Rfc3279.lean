import Verif.Built.Rfc3279
import Verif.Asn1.Built

/-! The descriptions of the classes of rfc3279.py, checked (generated by tools/builtgen.py). -/

set_option maxRecDepth 100000

namespace Verif
namespace Built

theorem Rfc3279.checked : description.Ok := ⟨rfl, by decide +kernel⟩

end Built
end Verif
