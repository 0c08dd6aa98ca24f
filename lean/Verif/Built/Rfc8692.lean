import Verif.Spec.Built
import Verif.Std.Rfc8692

/-! What rfc8692.py implements, where that is not the standard (generated by tools/builtgen.py). -/

namespace Verif
namespace Built
namespace Rfc8692

open Asn1 Verif.Std Spec.X680 Spec.Built

def description : Description :=
  ⟨Verif.Rfc8692.asModule,
   []⟩

end Rfc8692
end Built
end Verif
