import Verif.Built.Rfc6482
import Verif.Asn1.Built

/-! The descriptions of the classes of rfc6482.py, checked (generated by tools/builtgen.py). -/

set_option maxRecDepth 100000

namespace Verif
namespace Built

theorem Rfc6482.checked : description.Ok := ⟨rfl, by decide +kernel⟩

end Built
end Verif
