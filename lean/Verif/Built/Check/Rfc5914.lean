import Verif.Built.Rfc5914
import Verif.Asn1.Built

/-! The descriptions of the classes of rfc5914.py, checked (generated by tools/builtgen.py). -/

set_option maxRecDepth 100000

namespace Verif
namespace Built

theorem Rfc5914.checked : description.Ok := ⟨rfl, by decide +kernel⟩

end Built
end Verif
