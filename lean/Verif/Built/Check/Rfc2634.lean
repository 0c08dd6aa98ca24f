import Verif.Built.Rfc2634
import Verif.Asn1.Built

/-! The descriptions of the classes of rfc2634.py, checked (generated by tools/builtgen.py). -/

set_option maxRecDepth 100000

namespace Verif
namespace Built

theorem Rfc2634.checked : description.Ok := ⟨rfl, by decide +kernel⟩

end Built
end Verif
