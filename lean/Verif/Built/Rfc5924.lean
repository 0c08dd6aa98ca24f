import Verif.Spec.Built
import Verif.Std.Rfc5924

/-! What rfc5924.py implements, where that is not the standard (generated by tools/builtgen.py). -/

namespace Verif
namespace Built
namespace Rfc5924

open Asn1 Verif.Std Spec.X680 Spec.Built

def description : Description :=
  ⟨Verif.Rfc5924.asModule,
   []⟩

end Rfc5924
end Built
end Verif
