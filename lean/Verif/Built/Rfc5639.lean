import Verif.Spec.Built
import Verif.Std.Rfc5639

/-! What rfc5639.py implements, where that is not the standard (generated by tools/builtgen.py). -/

namespace Verif
namespace Built
namespace Rfc5639

open Asn1 Verif.Std Spec.X680 Spec.Built

def description : Description :=
  ⟨Verif.Rfc5639.asModule,
   []⟩

end Rfc5639
end Built
end Verif
