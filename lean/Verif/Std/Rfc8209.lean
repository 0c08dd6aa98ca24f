import Verif.Spec.Grade
import Verif.Gen.Rfc8209

/-! The ASN.1 of tools/std/rfc8209.asn1 (generated by tools/stdgen.py). -/

namespace Verif
namespace Std
namespace Rfc8209

open Asn1 Spec.X680

/-- Classes of rfc8209.py and the types of the standard they implement. -/
def entries : List Entry :=
  []

/-- Classes of rfc8209.py the transcription of the standard has no type for. -/
def beyond : List String :=
  []

/-- Constants of rfc8209.py and the values the standard gives them. -/
def constants : List Constant :=
  [⟨"rfc8209.id_kp", Verif.Rfc8209.id_kp, OBJECT_IDENTIFIER, .oid [1, 3, 6, 1, 5, 5, 7, 3], true⟩,
   ⟨"rfc8209.id_kp_bgpsec_router", Verif.Rfc8209.id_kp_bgpsec_router, OBJECT_IDENTIFIER, .oid [1, 3, 6, 1, 5, 5, 7, 3, 30], true⟩]

/-- Constants of rfc8209.py the transcription of the standard has no value for. -/
def others : List String :=
  []

def standard : Standard := ⟨Verif.Rfc8209.asModule, entries, beyond, constants, others⟩

end Rfc8209
end Std
end Verif
