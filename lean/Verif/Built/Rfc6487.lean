import Verif.Spec.Built
import Verif.Std.Rfc6487

/-! What rfc6487.py implements, where that is not the standard (generated by tools/builtgen.py). -/

namespace Verif
namespace Built
namespace Rfc6487

open Asn1 Verif.Std Spec.X680 Spec.Built

def description : Description :=
  ⟨Verif.Rfc6487.asModule,
   []⟩

end Rfc6487
end Built
end Verif
