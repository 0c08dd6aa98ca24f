import Verif.Spec.Grade
import Verif.Gen.Rfc4043
import Verif.Std.Rfc5280

/-! The ASN.1 of tools/std/rfc4043.asn1 (generated by tools/stdgen.py). -/

namespace Verif
namespace Std
namespace Rfc4043

open Asn1 Spec.X680

/-- `PermanentIdentifier ::=` -/
def PermanentIdentifier : Ty :=
  SEQUENCE [
    optional "identifierValue" UTF8String,
    optional "assigner" OBJECT_IDENTIFIER]

/-- Classes of rfc4043.py and the types of the standard they implement. -/
def entries : List Entry :=
  [⟨"rfc4043.PermanentIdentifier", Verif.Rfc4043.PermanentIdentifier, PermanentIdentifier, .same, false⟩]

/-- Classes of rfc4043.py the transcription of the standard has no type for. -/
def beyond : List String :=
  []

/-- Constants of rfc4043.py and the values the standard gives them. -/
def constants : List Constant :=
  [⟨"rfc4043.id_pkix", Verif.Rfc4043.id_pkix, OBJECT_IDENTIFIER, .oid [1, 3, 6, 1, 5, 5, 7], true⟩,
   ⟨"rfc4043.id_on", Verif.Rfc4043.id_on, OBJECT_IDENTIFIER, .oid [1, 3, 6, 1, 5, 5, 7, 8], true⟩,
   ⟨"rfc4043.id_on_permanentIdentifier", Verif.Rfc4043.id_on_permanentIdentifier, OBJECT_IDENTIFIER, .oid [1, 3, 6, 1, 5, 5, 7, 8, 3], true⟩]

/-- Constants of rfc4043.py the transcription of the standard has no value for. -/
def others : List String :=
  []

def standard : Standard := ⟨Verif.Rfc4043.asModule, entries, beyond, constants, others⟩

end Rfc4043
end Std
end Verif
