import Verif.Spec.Built
import Verif.Std.Rfc8419

/-! What rfc8419.py implements, where that is not the standard (generated by tools/builtgen.py). -/

namespace Verif
namespace Built
namespace Rfc8419

open Asn1 Verif.Std Spec.X680 Spec.Built

def description : Description :=
  ⟨Verif.Rfc8419.asModule,
   [⟨"rfc8419.ShakeOutputLen", Verif.Rfc8419.ShakeOutputLen, Std.Rfc8419.ShakeOutputLen⟩]⟩

end Rfc8419
end Built
end Verif
