import Verif.Spec.Grade
import Verif.Gen.Rfc8479

/-! The ASN.1 of tools/std/rfc8479.asn1 (generated by tools/stdgen.py). -/

namespace Verif
namespace Std
namespace Rfc8479

open Asn1 Spec.X680

/-- `ValidationParams ::=` -/
def ValidationParams : Ty :=
  SEQUENCE [
    mandatory "hashAlg" OBJECT_IDENTIFIER,
    mandatory "seed" OCTET_STRING]

/-- Classes of rfc8479.py and the types of the standard they implement. -/
def entries : List Entry :=
  [⟨"rfc8479.ValidationParams", Verif.Rfc8479.ValidationParams, ValidationParams, .same, false⟩]

/-- Classes of rfc8479.py the transcription of the standard has no type for. -/
def beyond : List String :=
  []

/-- Constants of rfc8479.py and the values the standard gives them. -/
def constants : List Constant :=
  [⟨"rfc8479.id_attr_validation_parameters", Verif.Rfc8479.id_attr_validation_parameters, OBJECT_IDENTIFIER, .oid [1, 3, 6, 1, 4, 1, 2312, 18, 8, 1], true⟩]

/-- Constants of rfc8479.py the transcription of the standard has no value for. -/
def others : List String :=
  ["rfc8479.at_validation_parameters"]

def standard : Standard := ⟨Verif.Rfc8479.asModule, entries, beyond, constants, others⟩

end Rfc8479
end Std
end Verif
