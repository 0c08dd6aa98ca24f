import Verif.Built.Rfc8209
import Verif.Asn1.Built

/-! The descriptions of the classes of rfc8209.py, checked (generated by tools/builtgen.py). -/

set_option maxRecDepth 100000

namespace Verif
namespace Built

theorem Rfc8209.checked : description.Ok := ⟨rfl, by decide +kernel⟩

end Built
end Verif
