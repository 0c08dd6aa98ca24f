import Verif.Built.Rfc5126
import Verif.Asn1.Built

/-! The descriptions of the classes of rfc5126.py, checked (generated by tools/builtgen.py). -/

set_option maxRecDepth 100000

namespace Verif
namespace Built

theorem Rfc5126.checked : description.Ok := ⟨rfl, by decide +kernel⟩

end Built
end Verif
