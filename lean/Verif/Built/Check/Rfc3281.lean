import Verif.Built.Rfc3281
import Verif.Asn1.Built

/-! The descriptions of the classes of rfc3281.py, checked (generated by tools/builtgen.py). -/

set_option maxRecDepth 100000

namespace Verif
namespace Built

theorem Rfc3281.checked : description.Ok := ⟨rfl, by decide +kernel⟩

end Built
end Verif
