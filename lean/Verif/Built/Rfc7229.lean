import Verif.Spec.Built
import Verif.Std.Rfc7229

/-! What rfc7229.py implements, where that is not the standard (generated by tools/builtgen.py). -/

namespace Verif
namespace Built
namespace Rfc7229

open Asn1 Verif.Std Spec.X680 Spec.Built

def description : Description :=
  ⟨Verif.Rfc7229.asModule,
   []⟩

end Rfc7229
end Built
end Verif
