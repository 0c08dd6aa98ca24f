import Verif.Spec.Grade
import Verif.Gen.Rfc3537

/-! The ASN.1 of tools/std/rfc3537.asn1 (generated by tools/stdgen.py). -/

namespace Verif
namespace Std
namespace Rfc3537

open Asn1 Spec.X680

/-- Classes of rfc3537.py and the types of the standard they implement. -/
def entries : List Entry :=
  []

/-- Classes of rfc3537.py the transcription of the standard has no type for. -/
def beyond : List String :=
  []

/-- Constants of rfc3537.py and the values the standard gives them. -/
def constants : List Constant :=
  [⟨"rfc3537.id_alg_HMACwith3DESwrap", Verif.Rfc3537.id_alg_HMACwith3DESwrap, OBJECT_IDENTIFIER, .oid [1, 2, 840, 113549, 1, 9, 16, 3, 11], true⟩,
   ⟨"rfc3537.id_alg_HMACwithAESwrap", Verif.Rfc3537.id_alg_HMACwithAESwrap, OBJECT_IDENTIFIER, .oid [1, 2, 840, 113549, 1, 9, 16, 3, 12], true⟩]

/-- Constants of rfc3537.py the transcription of the standard has no value for. -/
def others : List String :=
  []

def standard : Standard := ⟨Verif.Rfc3537.asModule, entries, beyond, constants, others⟩

end Rfc3537
end Std
end Verif
