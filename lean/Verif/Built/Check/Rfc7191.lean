import Verif.Built.Rfc7191
import Verif.Asn1.Built

/-! The descriptions of the classes of rfc7191.py, checked (generated by tools/builtgen.py). -/

set_option maxRecDepth 100000

namespace Verif
namespace Built

theorem Rfc7191.checked : description.Ok := ⟨rfl, by decide +kernel⟩

end Built
end Verif
