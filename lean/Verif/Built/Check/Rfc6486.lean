import Verif.Built.Rfc6486
import Verif.Asn1.Built

/-! The descriptions of the classes of rfc6486.py, checked (generated by tools/builtgen.py). -/

set_option maxRecDepth 100000

namespace Verif
namespace Built

theorem Rfc6486.checked : description.Ok := ⟨rfl, by decide +kernel⟩

end Built
end Verif
