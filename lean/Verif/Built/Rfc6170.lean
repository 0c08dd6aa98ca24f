import Verif.Spec.Built
import Verif.Std.Rfc6170

/-! What rfc6170.py implements, where that is not the standard (generated by tools/builtgen.py). -/

namespace Verif
namespace Built
namespace Rfc6170

open Asn1 Verif.Std Spec.X680 Spec.Built

def description : Description :=
  ⟨Verif.Rfc6170.asModule,
   []⟩

end Rfc6170
end Built
end Verif
