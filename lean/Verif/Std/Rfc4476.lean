import Verif.Spec.Grade
import Verif.Gen.Rfc4476
import Verif.Std.Rfc5280

/-! The ASN.1 of tools/std/rfc4476.asn1 (generated by tools/stdgen.py). -/

namespace Verif
namespace Std
namespace Rfc4476

open Asn1 Spec.X680

/-- `AcPolicyId ::=` -/
def AcPolicyId : Ty :=
  OBJECT_IDENTIFIER

/-- `PolicyInformation ::=` -/
def PolicyInformation : Ty :=
  SEQUENCE [
    mandatory "policyIdentifier" AcPolicyId,
    optional "policyQualifiers" (constrained (SIZE_MAX 1) (SEQUENCE_OF Std.Rfc5280.PolicyQualifierInfo))]

/-- `AcPoliciesSyntax ::=` -/
def AcPoliciesSyntax : Ty :=
  constrained (SIZE_MAX 1) (SEQUENCE_OF PolicyInformation)

/-- `ACUserNotice ::=` -/
def ACUserNotice : Ty :=
  Std.Rfc5280.UserNotice

/-- `ACPSuri ::=` -/
def ACPSuri : Ty :=
  IA5String

/-- Classes of rfc4476.py and the types of the standard they implement. -/
def entries : List Entry :=
  [⟨"rfc4476.PolicyQualifierId", Verif.Rfc4476.PolicyQualifierId, Std.Rfc5280.PolicyQualifierId, .relaxed, false⟩,
   ⟨"rfc4476.PolicyQualifierInfo", Verif.Rfc4476.PolicyQualifierInfo, Std.Rfc5280.PolicyQualifierInfo, .relaxed, false⟩,
   ⟨"rfc4476.UserNotice", Verif.Rfc4476.UserNotice, Std.Rfc5280.UserNotice, .same, false⟩,
   ⟨"rfc4476.ACUserNotice", Verif.Rfc4476.ACUserNotice, ACUserNotice, .same, false⟩,
   ⟨"rfc4476.ACPSuri", Verif.Rfc4476.ACPSuri, ACPSuri, .same, false⟩,
   ⟨"rfc4476.AcPolicyId", Verif.Rfc4476.AcPolicyId, AcPolicyId, .same, false⟩,
   ⟨"rfc4476.PolicyInformation", Verif.Rfc4476.PolicyInformation, PolicyInformation, .relaxed, false⟩,
   ⟨"rfc4476.AcPoliciesSyntax", Verif.Rfc4476.AcPoliciesSyntax, AcPoliciesSyntax, .relaxed, false⟩]

/-- Classes of rfc4476.py the transcription of the standard has no type for. -/
def beyond : List String :=
  []

/-- Constants of rfc4476.py and the values the standard gives them. -/
def constants : List Constant :=
  [⟨"rfc4476.id_pkix", Verif.Rfc4476.id_pkix, OBJECT_IDENTIFIER, .oid [1, 3, 6, 1, 5, 5, 7], true⟩,
   ⟨"rfc4476.id_pe", Verif.Rfc4476.id_pe, OBJECT_IDENTIFIER, .oid [1, 3, 6, 1, 5, 5, 7, 1], true⟩,
   ⟨"rfc4476.id_pe_acPolicies", Verif.Rfc4476.id_pe_acPolicies, OBJECT_IDENTIFIER, .oid [1, 3, 6, 1, 5, 5, 7, 1, 15], true⟩,
   ⟨"rfc4476.id_qt", Verif.Rfc4476.id_qt, OBJECT_IDENTIFIER, .oid [1, 3, 6, 1, 5, 5, 7, 2], true⟩,
   ⟨"rfc4476.id_qt_acps", Verif.Rfc4476.id_qt_acps, OBJECT_IDENTIFIER, .oid [1, 3, 6, 1, 5, 5, 7, 2, 4], true⟩,
   ⟨"rfc4476.id_qt_acunotice", Verif.Rfc4476.id_qt_acunotice, OBJECT_IDENTIFIER, .oid [1, 3, 6, 1, 5, 5, 7, 2, 5], true⟩]

/-- Constants of rfc4476.py the transcription of the standard has no value for. -/
def others : List String :=
  []

def standard : Standard := ⟨Verif.Rfc4476.asModule, entries, beyond, constants, others⟩

end Rfc4476
end Std
end Verif
