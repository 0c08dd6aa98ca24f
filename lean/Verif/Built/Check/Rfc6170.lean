import Verif.Built.Rfc6170
import Verif.Asn1.Built

/-! The descriptions of the classes of rfc6170.py, checked (generated by tools/builtgen.py). -/

set_option maxRecDepth 100000

namespace Verif
namespace Built

theorem Rfc6170.checked : description.Ok := ⟨rfl, by decide +kernel⟩

end Built
end Verif
