import Verif.Spec.Built
import Verif.Std.Rfc3560
import Verif.Built.Rfc4055
import Verif.Std.Rfc4055

/-! What rfc3560.py implements, where that is not the standard (generated by tools/builtgen.py). -/

namespace Verif
namespace Built
namespace Rfc3560

open Asn1 Verif.Std Spec.X680 Spec.Built

def description : Description :=
  ⟨Verif.Rfc3560.asModule,
   [⟨"rfc3560.RSAES_OAEP_params", Verif.Rfc3560.RSAES_OAEP_params, Built.Rfc4055.RSAES_OAEP_params⟩]⟩

end Rfc3560
end Built
end Verif
