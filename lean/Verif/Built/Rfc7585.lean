import Verif.Spec.Built
import Verif.Std.Rfc7585

/-! What rfc7585.py implements, where that is not the standard (generated by tools/builtgen.py). -/

namespace Verif
namespace Built
namespace Rfc7585

open Asn1 Verif.Std Spec.X680 Spec.Built

def description : Description :=
  ⟨Verif.Rfc7585.asModule,
   [⟨"rfc7585.NAIRealm", Verif.Rfc7585.NAIRealm, Std.Rfc7585.NAIRealm⟩]⟩

end Rfc7585
end Built
end Verif
