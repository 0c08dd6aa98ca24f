import Verif.Built.Rfc8360
import Verif.Asn1.Built

/-! The descriptions of the classes of rfc8360.py, checked (generated by tools/builtgen.py). -/

set_option maxRecDepth 100000

namespace Verif
namespace Built

theorem Rfc8360.checked : description.Ok := ⟨rfl, by decide +kernel⟩

end Built
end Verif
