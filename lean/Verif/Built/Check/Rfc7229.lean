import Verif.Built.Rfc7229
import Verif.Asn1.Built

/-! The descriptions of the classes of rfc7229.py, checked (generated by tools/builtgen.py). -/

set_option maxRecDepth 100000

namespace Verif
namespace Built

theorem Rfc7229.checked : description.Ok := ⟨rfl, by decide +kernel⟩

end Built
end Verif
