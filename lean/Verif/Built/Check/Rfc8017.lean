import Verif.Built.Rfc8017
import Verif.Asn1.Built

/-! The descriptions of the classes of rfc8017.py, checked (generated by tools/builtgen.py). -/

set_option maxRecDepth 100000

namespace Verif
namespace Built

theorem Rfc8017.checked : description.Ok := ⟨rfl, by decide +kernel⟩

end Built
end Verif
