import Verif.Spec.Grade
import Verif.Gen.Rfc2631

/-! The ASN.1 of tools/std/rfc2631.asn1 (generated by tools/stdgen.py). -/

namespace Verif
namespace Std
namespace Rfc2631

open Asn1 Spec.X680

/-- `KeySpecificInfo ::=` -/
def KeySpecificInfo : Ty :=
  SEQUENCE [
    mandatory "algorithm" OBJECT_IDENTIFIER,
    mandatory "counter" (constrained (SIZE 4 4) OCTET_STRING)]

/-- `OtherInfo ::=` -/
def OtherInfo : Ty :=
  SEQUENCE [
    mandatory "keyInfo" KeySpecificInfo,
    optional "partyAInfo" (explicit .context 0 OCTET_STRING),
    mandatory "suppPubInfo" (explicit .context 2 OCTET_STRING)]

/-- Classes of rfc2631.py and the types of the standard they implement. -/
def entries : List Entry :=
  [⟨"rfc2631.KeySpecificInfo", Verif.Rfc2631.KeySpecificInfo, KeySpecificInfo, .same, false⟩,
   ⟨"rfc2631.OtherInfo", Verif.Rfc2631.OtherInfo, OtherInfo, .same, false⟩]

/-- Classes of rfc2631.py the transcription of the standard has no type for. -/
def beyond : List String :=
  []

/-- Constants of rfc2631.py and the values the standard gives them. -/
def constants : List Constant :=
  []

/-- Constants of rfc2631.py the transcription of the standard has no value for. -/
def others : List String :=
  []

def standard : Standard := ⟨Verif.Rfc2631.asModule, entries, beyond, constants, others⟩

end Rfc2631
end Std
end Verif
