import Verif.Built.Rfc8619
import Verif.Asn1.Built

/-! The descriptions of the classes of rfc8619.py, checked (generated by tools/builtgen.py). -/

set_option maxRecDepth 100000

namespace Verif
namespace Built

theorem Rfc8619.checked : description.Ok := ⟨rfl, by decide +kernel⟩

end Built
end Verif
