import Verif.Spec.Built
import Verif.Std.Rfc4683

/-! What rfc4683.py implements, where that is not the standard (generated by tools/builtgen.py). -/

namespace Verif
namespace Built
namespace Rfc4683

open Asn1 Verif.Std Spec.X680 Spec.Built

def description : Description :=
  ⟨Verif.Rfc4683.asModule,
   [⟨"rfc4683.HashContent", Verif.Rfc4683.HashContent, Std.Rfc4683.HashContent⟩,
    ⟨"rfc4683.SIM", Verif.Rfc4683.SIM, Std.Rfc4683.SIM⟩,
    ⟨"rfc4683.EncryptedPEPSI", Verif.Rfc4683.EncryptedPEPSI, Std.Rfc4683.EncryptedPEPSI⟩]⟩

end Rfc4683
end Built
end Verif
