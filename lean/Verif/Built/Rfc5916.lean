import Verif.Spec.Built
import Verif.Std.Rfc5916

/-! What rfc5916.py implements, where that is not the standard (generated by tools/builtgen.py). -/

namespace Verif
namespace Built
namespace Rfc5916

open Asn1 Verif.Std Spec.X680 Spec.Built

def description : Description :=
  ⟨Verif.Rfc5916.asModule,
   []⟩

end Rfc5916
end Built
end Verif
