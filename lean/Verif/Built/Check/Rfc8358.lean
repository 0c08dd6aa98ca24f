import Verif.Built.Rfc8358
import Verif.Asn1.Built

/-! The descriptions of the classes of rfc8358.py, checked (generated by tools/builtgen.py). -/

set_option maxRecDepth 100000

namespace Verif
namespace Built

theorem Rfc8358.checked : description.Ok := ⟨rfl, by decide +kernel⟩

end Built
end Verif
