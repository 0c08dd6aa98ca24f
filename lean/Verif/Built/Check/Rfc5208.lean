import Verif.Built.Rfc5208
import Verif.Asn1.Built

/-! The descriptions of the classes of rfc5208.py, checked (generated by tools/builtgen.py). -/

set_option maxRecDepth 100000

namespace Verif
namespace Built

theorem Rfc5208.checked : description.Ok := ⟨rfl, by decide +kernel⟩

end Built
end Verif
