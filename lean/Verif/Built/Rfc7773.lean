import Verif.Spec.Built
import Verif.Std.Rfc7773

/-! What rfc7773.py implements, where that is not the standard (generated by tools/builtgen.py). -/

namespace Verif
namespace Built
namespace Rfc7773

open Asn1 Verif.Std Spec.X680 Spec.Built

def description : Description :=
  ⟨Verif.Rfc7773.asModule,
   [⟨"rfc7773.AuthenticationContext", Verif.Rfc7773.AuthenticationContext, Std.Rfc7773.AuthenticationContext⟩,
    ⟨"rfc7773.AuthenticationContexts", Verif.Rfc7773.AuthenticationContexts, Std.Rfc7773.AuthenticationContexts⟩]⟩

end Rfc7773
end Built
end Verif
