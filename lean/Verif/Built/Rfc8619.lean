import Verif.Spec.Built
import Verif.Std.Rfc8619

/-! What rfc8619.py implements, where that is not the standard (generated by tools/builtgen.py). -/

namespace Verif
namespace Built
namespace Rfc8619

open Asn1 Verif.Std Spec.X680 Spec.Built

def description : Description :=
  ⟨Verif.Rfc8619.asModule,
   []⟩

end Rfc8619
end Built
end Verif
