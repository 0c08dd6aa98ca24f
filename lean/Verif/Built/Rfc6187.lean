import Verif.Spec.Built
import Verif.Std.Rfc6187

/-! What rfc6187.py implements, where that is not the standard (generated by tools/builtgen.py). -/

namespace Verif
namespace Built
namespace Rfc6187

open Asn1 Verif.Std Spec.X680 Spec.Built

def description : Description :=
  ⟨Verif.Rfc6187.asModule,
   []⟩

end Rfc6187
end Built
end Verif
