import Verif.Spec.Built
import Verif.Std.Rfc3537

/-! What rfc3537.py implements, where that is not the standard (generated by tools/builtgen.py). -/

namespace Verif
namespace Built
namespace Rfc3537

open Asn1 Verif.Std Spec.X680 Spec.Built

def description : Description :=
  ⟨Verif.Rfc3537.asModule,
   []⟩

end Rfc3537
end Built
end Verif
