import Verif.Built.Rfc8520
import Verif.Asn1.Built

/-! The descriptions of the classes of rfc8520.py, checked (generated by tools/builtgen.py). -/

set_option maxRecDepth 100000

namespace Verif
namespace Built

theorem Rfc8520.checked : description.Ok := ⟨rfl, by decide +kernel⟩

end Built
end Verif
