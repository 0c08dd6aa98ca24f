import Verif.Built.Rfc2315
import Verif.Asn1.Built

/-! The descriptions of the classes of rfc2315.py, checked (generated by tools/builtgen.py). -/

set_option maxRecDepth 100000

namespace Verif
namespace Built

theorem Rfc2315.checked : description.Ok := ⟨rfl, by decide +kernel⟩

end Built
end Verif
