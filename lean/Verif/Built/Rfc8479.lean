import Verif.Spec.Built
import Verif.Std.Rfc8479

/-! What rfc8479.py implements, where that is not the standard (generated by tools/builtgen.py). -/

namespace Verif
namespace Built
namespace Rfc8479

open Asn1 Verif.Std Spec.X680 Spec.Built

def description : Description :=
  ⟨Verif.Rfc8479.asModule,
   [⟨"rfc8479.ValidationParams", Verif.Rfc8479.ValidationParams, Std.Rfc8479.ValidationParams⟩]⟩

end Rfc8479
end Built
end Verif
