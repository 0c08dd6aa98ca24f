import Verif.Spec.Built
import Verif.Std.Rfc2876

/-! What rfc2876.py implements, where that is not the standard (generated by tools/builtgen.py). -/

namespace Verif
namespace Built
namespace Rfc2876

open Asn1 Verif.Std Spec.X680 Spec.Built

def description : Description :=
  ⟨Verif.Rfc2876.asModule,
   [⟨"rfc2876.Skipjack_Parm", Verif.Rfc2876.Skipjack_Parm, Std.Rfc2876.Skipjack_Parm⟩]⟩

end Rfc2876
end Built
end Verif
