import Verif.Spec.Grade
import Verif.Gen.Rfc8226

/-! The ASN.1 of tools/std/rfc8226.asn1 (generated by tools/stdgen.py). -/

namespace Verif
namespace Std
namespace Rfc8226

open Asn1 Spec.X680

/-- `JWTClaimName ::=` -/
def JWTClaimName : Ty :=
  IA5String

/-- `JWTClaimNames ::=` -/
def JWTClaimNames : Ty :=
  constrained (SIZE_MAX 1) (SEQUENCE_OF JWTClaimName)

/-- `JWTClaimPermittedValues ::=` -/
def JWTClaimPermittedValues : Ty :=
  SEQUENCE [
    mandatory "claim" JWTClaimName,
    mandatory "permitted" (constrained (SIZE_MAX 1) (SEQUENCE_OF UTF8String))]

/-- `JWTClaimPermittedValuesList ::=` -/
def JWTClaimPermittedValuesList : Ty :=
  constrained (SIZE_MAX 1) (SEQUENCE_OF JWTClaimPermittedValues)

/-- `JWTClaimConstraints ::=` -/
def JWTClaimConstraints : Ty :=
  constrained (EITHER (WITH_COMPONENTS [("mustInclude", true)]) (WITH_COMPONENTS [("permittedValues", true)])) (SEQUENCE [
    optional "mustInclude" (explicit .context 0 JWTClaimNames),
    optional "permittedValues" (explicit .context 1 JWTClaimPermittedValuesList)])

/-- `ServiceProviderCode ::=` -/
def ServiceProviderCode : Ty :=
  IA5String

/-- `TelephoneNumber ::=` -/
def TelephoneNumber : Ty :=
  constrained (FROM "0123456789#*") (constrained (SIZE 1 15) IA5String)

/-- `TelephoneNumberRange ::=` -/
def TelephoneNumberRange : Ty :=
  SEQUENCE [
    mandatory "start" TelephoneNumber,
    mandatory "count" (constrained (RANGE_MAX 2) INTEGER)]

/-- `TNEntry ::=` -/
def TNEntry : Ty :=
  CHOICE [
    mandatory "spc" (explicit .context 0 ServiceProviderCode),
    mandatory "range" (explicit .context 1 TelephoneNumberRange),
    mandatory "one" (explicit .context 2 TelephoneNumber)]

/-- `TNAuthorizationList ::=` -/
def TNAuthorizationList : Ty :=
  constrained (SIZE_MAX 1) (SEQUENCE_OF TNEntry)

/-- Classes of rfc8226.py and the types of the standard they implement. -/
def entries : List Entry :=
  [⟨"rfc8226.JWTClaimName", Verif.Rfc8226.JWTClaimName, JWTClaimName, .same, false⟩,
   ⟨"rfc8226.JWTClaimNames", Verif.Rfc8226.JWTClaimNames, JWTClaimNames, .same, false⟩,
   ⟨"rfc8226.JWTClaimPermittedValues", Verif.Rfc8226.JWTClaimPermittedValues, JWTClaimPermittedValues, .same, false⟩,
   ⟨"rfc8226.JWTClaimPermittedValuesList", Verif.Rfc8226.JWTClaimPermittedValuesList, JWTClaimPermittedValuesList, .same, false⟩,
   ⟨"rfc8226.JWTClaimConstraints", Verif.Rfc8226.JWTClaimConstraints, JWTClaimConstraints, .same, false⟩,
   ⟨"rfc8226.ServiceProviderCode", Verif.Rfc8226.ServiceProviderCode, ServiceProviderCode, .same, false⟩,
   ⟨"rfc8226.TelephoneNumber", Verif.Rfc8226.TelephoneNumber, TelephoneNumber, .same, false⟩,
   ⟨"rfc8226.TelephoneNumberRange", Verif.Rfc8226.TelephoneNumberRange, TelephoneNumberRange, .same, false⟩,
   ⟨"rfc8226.TNEntry", Verif.Rfc8226.TNEntry, TNEntry, .same, false⟩,
   ⟨"rfc8226.TNAuthorizationList", Verif.Rfc8226.TNAuthorizationList, TNAuthorizationList, .same, false⟩]

/-- Classes of rfc8226.py the transcription of the standard has no type for. -/
def beyond : List String :=
  []

/-- Constants of rfc8226.py and the values the standard gives them. -/
def constants : List Constant :=
  [⟨"rfc8226.id_pe_JWTClaimConstraints", Verif.Rfc8226.id_pe_JWTClaimConstraints, OBJECT_IDENTIFIER, .oid [1, 3, 6, 1, 5, 5, 7, 1, 27], true⟩,
   ⟨"rfc8226.id_pe_TNAuthList", Verif.Rfc8226.id_pe_TNAuthList, OBJECT_IDENTIFIER, .oid [1, 3, 6, 1, 5, 5, 7, 1, 26], true⟩,
   ⟨"rfc8226.id_ad_stirTNList", Verif.Rfc8226.id_ad_stirTNList, OBJECT_IDENTIFIER, .oid [1, 3, 6, 1, 5, 5, 7, 48, 14], true⟩]

/-- Constants of rfc8226.py the transcription of the standard has no value for. -/
def others : List String :=
  []

def standard : Standard := ⟨Verif.Rfc8226.asModule, entries, beyond, constants, others⟩

end Rfc8226
end Std
end Verif
