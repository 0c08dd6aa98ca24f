import Verif.Spec.Built
import Verif.Std.Rfc3058

/-! What rfc3058.py implements, where that is not the standard (generated by tools/builtgen.py). -/

namespace Verif
namespace Built
namespace Rfc3058

open Asn1 Verif.Std Spec.X680 Spec.Built

def description : Description :=
  ⟨Verif.Rfc3058.asModule,
   [⟨"rfc3058.IDEA_CBCPar", Verif.Rfc3058.IDEA_CBCPar, Std.Rfc3058.IDEA_CBCPar⟩]⟩

end Rfc3058
end Built
end Verif
