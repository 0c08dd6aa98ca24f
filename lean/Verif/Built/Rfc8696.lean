import Verif.Spec.Built
import Verif.Std.Rfc8696

/-! What rfc8696.py implements, where that is not the standard (generated by tools/builtgen.py). -/

namespace Verif
namespace Built
namespace Rfc8696

open Asn1 Verif.Std Spec.X680 Spec.Built

def description : Description :=
  ⟨Verif.Rfc8696.asModule,
   [⟨"rfc8696.PreSharedKeyIdentifier", Verif.Rfc8696.PreSharedKeyIdentifier, Std.Rfc8696.PreSharedKeyIdentifier⟩,
    ⟨"rfc8696.KeyTransRecipientInfos", Verif.Rfc8696.KeyTransRecipientInfos, Std.Rfc8696.KeyTransRecipientInfos⟩,
    ⟨"rfc8696.KeyTransPSKRecipientInfo", Verif.Rfc8696.KeyTransPSKRecipientInfo, Std.Rfc8696.KeyTransPSKRecipientInfo⟩,
    ⟨"rfc8696.KeyAgreePSKRecipientInfo", Verif.Rfc8696.KeyAgreePSKRecipientInfo, Std.Rfc8696.KeyAgreePSKRecipientInfo⟩,
    ⟨"rfc8696.CMSORIforPSKOtherInfo", Verif.Rfc8696.CMSORIforPSKOtherInfo, Std.Rfc8696.CMSORIforPSKOtherInfo⟩]⟩

end Rfc8696
end Built
end Verif
