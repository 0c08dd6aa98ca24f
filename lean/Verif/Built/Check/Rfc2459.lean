import Verif.Built.Rfc2459
import Verif.Asn1.Built

/-! The descriptions of the classes of rfc2459.py, checked (generated by tools/builtgen.py). -/

set_option maxRecDepth 100000

namespace Verif
namespace Built

theorem Rfc2459.checked : description.Ok := ⟨rfl, by decide +kernel⟩

end Built
end Verif
