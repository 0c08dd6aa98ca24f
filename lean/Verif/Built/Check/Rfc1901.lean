import Verif.Built.Rfc1901
import Verif.Asn1.Built

/-! The descriptions of the classes of rfc1901.py, checked (generated by tools/builtgen.py). -/

set_option maxRecDepth 100000

namespace Verif
namespace Built

theorem Rfc1901.checked : description.Ok := ⟨rfl, by decide +kernel⟩

end Built
end Verif
