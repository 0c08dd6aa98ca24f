import Verif.Spec.Built
import Verif.Std.Rfc8209

/-! What rfc8209.py implements, where that is not the standard (generated by tools/builtgen.py). -/

namespace Verif
namespace Built
namespace Rfc8209

open Asn1 Verif.Std Spec.X680 Spec.Built

def description : Description :=
  ⟨Verif.Rfc8209.asModule,
   []⟩

end Rfc8209
end Built
end Verif
