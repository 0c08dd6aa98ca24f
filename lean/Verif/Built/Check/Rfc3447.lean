import Verif.Built.Rfc3447
import Verif.Asn1.Built

/-! The descriptions of the classes of rfc3447.py, checked (generated by tools/builtgen.py). -/

set_option maxRecDepth 100000

namespace Verif
namespace Built

theorem Rfc3447.checked : description.Ok := ⟨rfl, by decide +kernel⟩

end Built
end Verif
