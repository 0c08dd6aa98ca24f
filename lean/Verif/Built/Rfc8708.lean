import Verif.Spec.Built
import Verif.Std.Rfc8708

/-! What rfc8708.py implements, where that is not the standard (generated by tools/builtgen.py). -/

namespace Verif
namespace Built
namespace Rfc8708

open Asn1 Verif.Std Spec.X680 Spec.Built

def description : Description :=
  ⟨Verif.Rfc8708.asModule,
   [⟨"rfc8708.HSS_LMS_HashSig_PublicKey", Verif.Rfc8708.HSS_LMS_HashSig_PublicKey, Std.Rfc8708.HSS_LMS_HashSig_PublicKey⟩]⟩

end Rfc8708
end Built
end Verif
