import Verif.Spec.Built
import Verif.Std.Rfc4476
import Verif.Built.Rfc5280
import Verif.Std.Rfc5280

/-! What rfc4476.py implements, where that is not the standard (generated by tools/builtgen.py). -/

namespace Verif
namespace Built
namespace Rfc4476

open Asn1 Verif.Std Spec.X680 Spec.Built

/-- `PolicyInformation ::=` -/
def PolicyInformation : Ty :=
  SEQUENCE [
    mandatory "policyIdentifier" Std.Rfc4476.AcPolicyId,
    optional "policyQualifiers" (constrained (SIZE_MAX 1) (SEQUENCE_OF Built.Rfc5280.PolicyQualifierInfo))]

/-- `AcPoliciesSyntax ::=` -/
def AcPoliciesSyntax : Ty :=
  constrained (SIZE_MAX 1) (SEQUENCE_OF Built.Rfc4476.PolicyInformation)

def description : Description :=
  ⟨Verif.Rfc4476.asModule,
   [⟨"rfc4476.PolicyQualifierId", Verif.Rfc4476.PolicyQualifierId, Built.Rfc5280.PolicyQualifierId⟩,
    ⟨"rfc4476.PolicyQualifierInfo", Verif.Rfc4476.PolicyQualifierInfo, Built.Rfc5280.PolicyQualifierInfo⟩,
    ⟨"rfc4476.UserNotice", Verif.Rfc4476.UserNotice, Std.Rfc5280.UserNotice⟩,
    ⟨"rfc4476.ACUserNotice", Verif.Rfc4476.ACUserNotice, Std.Rfc4476.ACUserNotice⟩,
    ⟨"rfc4476.ACPSuri", Verif.Rfc4476.ACPSuri, Std.Rfc4476.ACPSuri⟩,
    ⟨"rfc4476.AcPolicyId", Verif.Rfc4476.AcPolicyId, Std.Rfc4476.AcPolicyId⟩,
    ⟨"rfc4476.PolicyInformation", Verif.Rfc4476.PolicyInformation, Built.Rfc4476.PolicyInformation⟩,
    ⟨"rfc4476.AcPoliciesSyntax", Verif.Rfc4476.AcPoliciesSyntax, Built.Rfc4476.AcPoliciesSyntax⟩]⟩

end Rfc4476
end Built
end Verif
