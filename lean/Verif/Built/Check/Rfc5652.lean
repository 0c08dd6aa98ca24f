import Verif.Built.Rfc5652
import Verif.Asn1.Built

/-! The descriptions of the classes of rfc5652.py, checked (generated by tools/builtgen.py). -/

set_option maxRecDepth 100000

namespace Verif
namespace Built

theorem Rfc5652.checked : description.Ok := ⟨rfl, by decide +kernel⟩

end Built
end Verif
