import Verif.Spec.Grade
import Verif.Gen.Rfc5924

/-! The ASN.1 of tools/std/rfc5924.asn1 (generated by tools/stdgen.py). -/

namespace Verif
namespace Std
namespace Rfc5924

open Asn1 Spec.X680

/-- Classes of rfc5924.py and the types of the standard they implement. -/
def entries : List Entry :=
  []

/-- Classes of rfc5924.py the transcription of the standard has no type for. -/
def beyond : List String :=
  []

/-- Constants of rfc5924.py and the values the standard gives them. -/
def constants : List Constant :=
  [⟨"rfc5924.id_kp", Verif.Rfc5924.id_kp, OBJECT_IDENTIFIER, .oid [1, 3, 6, 1, 5, 5, 7, 3], true⟩,
   ⟨"rfc5924.id_kp_sipDomain", Verif.Rfc5924.id_kp_sipDomain, OBJECT_IDENTIFIER, .oid [1, 3, 6, 1, 5, 5, 7, 3, 20], true⟩]

/-- Constants of rfc5924.py the transcription of the standard has no value for. -/
def others : List String :=
  []

def standard : Standard := ⟨Verif.Rfc5924.asModule, entries, beyond, constants, others⟩

end Rfc5924
end Std
end Verif
