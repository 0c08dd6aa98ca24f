import Verif.Spec.Built
import Verif.Std.Rfc3414

/-! What rfc3414.py implements, where that is not the standard (generated by tools/builtgen.py). -/

namespace Verif
namespace Built
namespace Rfc3414

open Asn1 Verif.Std Spec.X680 Spec.Built

def description : Description :=
  ⟨Verif.Rfc3414.asModule,
   [⟨"rfc3414.UsmSecurityParameters", Verif.Rfc3414.UsmSecurityParameters, Std.Rfc3414.UsmSecurityParameters⟩]⟩

end Rfc3414
end Built
end Verif
