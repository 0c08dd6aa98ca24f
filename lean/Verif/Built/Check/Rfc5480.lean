import Verif.Built.Rfc5480
import Verif.Asn1.Built

/-! The descriptions of the classes of rfc5480.py, checked (generated by tools/builtgen.py). -/

set_option maxRecDepth 100000

namespace Verif
namespace Built

theorem Rfc5480.checked : description.Ok := ⟨rfl, by decide +kernel⟩

end Built
end Verif
