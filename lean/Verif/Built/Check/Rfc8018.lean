import Verif.Built.Rfc8018
import Verif.Asn1.Built

/-! The descriptions of the classes of rfc8018.py, checked (generated by tools/builtgen.py). -/

set_option maxRecDepth 100000

namespace Verif
namespace Built

theorem Rfc8018.checked : description.Ok := ⟨rfl, by decide +kernel⟩

end Built
end Verif
