import Verif.Built.Rfc8649
import Verif.Asn1.Built

/-! The descriptions of the classes of rfc8649.py, checked (generated by tools/builtgen.py). -/

set_option maxRecDepth 100000

namespace Verif
namespace Built

theorem Rfc8649.checked : description.Ok := ⟨rfl, by decide +kernel⟩

end Built
end Verif
