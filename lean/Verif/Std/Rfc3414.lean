import Verif.Spec.Grade
import Verif.Gen.Rfc3414

/-! The ASN.1 of tools/std/rfc3414.asn1 (generated by tools/stdgen.py). -/

namespace Verif
namespace Std
namespace Rfc3414

open Asn1 Spec.X680

/-- `UsmSecurityParameters ::=` -/
def UsmSecurityParameters : Ty :=
  SEQUENCE [
    mandatory "msgAuthoritativeEngineID" OCTET_STRING,
    mandatory "msgAuthoritativeEngineBoots" (constrained (RANGE 0 2147483647) INTEGER),
    mandatory "msgAuthoritativeEngineTime" (constrained (RANGE 0 2147483647) INTEGER),
    mandatory "msgUserName" (constrained (SIZE 0 32) OCTET_STRING),
    mandatory "msgAuthenticationParameters" OCTET_STRING,
    mandatory "msgPrivacyParameters" OCTET_STRING]

/-- Classes of rfc3414.py and the types of the standard they implement. -/
def entries : List Entry :=
  [⟨"rfc3414.UsmSecurityParameters", Verif.Rfc3414.UsmSecurityParameters, UsmSecurityParameters, .same, false⟩]

/-- Classes of rfc3414.py the transcription of the standard has no type for. -/
def beyond : List String :=
  []

/-- Constants of rfc3414.py and the values the standard gives them. -/
def constants : List Constant :=
  []

/-- Constants of rfc3414.py the transcription of the standard has no value for. -/
def others : List String :=
  []

def standard : Standard := ⟨Verif.Rfc3414.asModule, entries, beyond, constants, others⟩

end Rfc3414
end Std
end Verif
