import Verif.Spec.Built
import Verif.Std.Rfc8358

/-! What rfc8358.py implements, where that is not the standard (generated by tools/builtgen.py). -/

namespace Verif
namespace Built
namespace Rfc8358

open Asn1 Verif.Std Spec.X680 Spec.Built

def description : Description :=
  ⟨Verif.Rfc8358.asModule,
   []⟩

end Rfc8358
end Built
end Verif
