import Verif.Spec.Built
import Verif.Std.Rfc5084

/-! What rfc5084.py implements, where that is not the standard (generated by tools/builtgen.py). -/

namespace Verif
namespace Built
namespace Rfc5084

open Asn1 Verif.Std Spec.X680 Spec.Built

def description : Description :=
  ⟨Verif.Rfc5084.asModule,
   [⟨"rfc5084.AES_CCM_ICVlen", Verif.Rfc5084.AES_CCM_ICVlen, Std.Rfc5084.AES_CCM_ICVlen⟩,
    ⟨"rfc5084.AES_GCM_ICVlen", Verif.Rfc5084.AES_GCM_ICVlen, Std.Rfc5084.AES_GCM_ICVlen⟩,
    ⟨"rfc5084.CCMParameters", Verif.Rfc5084.CCMParameters, Std.Rfc5084.CCMParameters⟩,
    ⟨"rfc5084.GCMParameters", Verif.Rfc5084.GCMParameters, Std.Rfc5084.GCMParameters⟩]⟩

end Rfc5084
end Built
end Verif
