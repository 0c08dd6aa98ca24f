import Verif.Built.Rfc3739
import Verif.Asn1.Built

/-! The descriptions of the classes of rfc3739.py, checked (generated by tools/builtgen.py). -/

set_option maxRecDepth 100000

namespace Verif
namespace Built

theorem Rfc3739.checked : description.Ok := ⟨rfl, by decide +kernel⟩

end Built
end Verif
