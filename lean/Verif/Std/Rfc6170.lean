import Verif.Spec.Grade
import Verif.Gen.Rfc6170

/-! The ASN.1 of tools/std/rfc6170.asn1 (generated by tools/stdgen.py). -/

namespace Verif
namespace Std
namespace Rfc6170

open Asn1 Spec.X680

/-- Classes of rfc6170.py and the types of the standard they implement. -/
def entries : List Entry :=
  []

/-- Classes of rfc6170.py the transcription of the standard has no type for. -/
def beyond : List String :=
  []

/-- Constants of rfc6170.py and the values the standard gives them. -/
def constants : List Constant :=
  [⟨"rfc6170.id_logo_certImage", Verif.Rfc6170.id_logo_certImage, OBJECT_IDENTIFIER, .oid [1, 3, 6, 1, 5, 5, 7, 20, 3], true⟩]

/-- Constants of rfc6170.py the transcription of the standard has no value for. -/
def others : List String :=
  []

def standard : Standard := ⟨Verif.Rfc6170.asModule, entries, beyond, constants, others⟩

end Rfc6170
end Std
end Verif
