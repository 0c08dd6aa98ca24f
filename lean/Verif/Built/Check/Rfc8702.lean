import Verif.Built.Rfc8702
import Verif.Asn1.Built

/-! The descriptions of the classes of rfc8702.py, checked (generated by tools/builtgen.py). -/

set_option maxRecDepth 100000

namespace Verif
namespace Built

theorem Rfc8702.checked : description.Ok := ⟨rfl, by decide +kernel⟩

end Built
end Verif
