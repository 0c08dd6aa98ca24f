import Verif.Built.Rfc5934
import Verif.Asn1.Built

/-! The descriptions of the classes of rfc5934.py, checked (generated by tools/builtgen.py). -/

set_option maxRecDepth 100000

namespace Verif
namespace Built

theorem Rfc5934.checked : description.Ok := ⟨rfl, by decide +kernel⟩

end Built
end Verif
