import Verif.Spec.Built
import Verif.Std.Rfc4985

/-! What rfc4985.py implements, where that is not the standard (generated by tools/builtgen.py). -/

namespace Verif
namespace Built
namespace Rfc4985

open Asn1 Verif.Std Spec.X680 Spec.Built

def description : Description :=
  ⟨Verif.Rfc4985.asModule,
   [⟨"rfc4985.SRVName", Verif.Rfc4985.SRVName, Std.Rfc4985.SRVName⟩]⟩

end Rfc4985
end Built
end Verif
