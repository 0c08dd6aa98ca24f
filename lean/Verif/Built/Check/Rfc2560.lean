import Verif.Built.Rfc2560
import Verif.Asn1.Built

/-! The descriptions of the classes of rfc2560.py, checked (generated by tools/builtgen.py). -/

set_option maxRecDepth 100000

namespace Verif
namespace Built

theorem Rfc2560.checked : description.Ok := ⟨rfl, by decide +kernel⟩

end Built
end Verif
