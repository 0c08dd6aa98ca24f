import Verif.Built.Rfc6664
import Verif.Asn1.Built

/-! The descriptions of the classes of rfc6664.py, checked (generated by tools/builtgen.py). -/

set_option maxRecDepth 100000

namespace Verif
namespace Built

theorem Rfc6664.checked : description.Ok := ⟨rfl, by decide +kernel⟩

end Built
end Verif
