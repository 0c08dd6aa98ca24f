import Verif.Spec.Grade
import Verif.Gen.Rfc8619

/-! The ASN.1 of tools/std/rfc8619.asn1 (generated by tools/stdgen.py). -/

namespace Verif
namespace Std
namespace Rfc8619

open Asn1 Spec.X680

/-- Classes of rfc8619.py and the types of the standard they implement. -/
def entries : List Entry :=
  []

/-- Classes of rfc8619.py the transcription of the standard has no type for. -/
def beyond : List String :=
  []

/-- Constants of rfc8619.py and the values the standard gives them. -/
def constants : List Constant :=
  [⟨"rfc8619.id_alg_hkdf_with_sha256", Verif.Rfc8619.id_alg_hkdf_with_sha256, OBJECT_IDENTIFIER, .oid [1, 2, 840, 113549, 1, 9, 16, 3, 28], true⟩,
   ⟨"rfc8619.id_alg_hkdf_with_sha384", Verif.Rfc8619.id_alg_hkdf_with_sha384, OBJECT_IDENTIFIER, .oid [1, 2, 840, 113549, 1, 9, 16, 3, 29], true⟩,
   ⟨"rfc8619.id_alg_hkdf_with_sha512", Verif.Rfc8619.id_alg_hkdf_with_sha512, OBJECT_IDENTIFIER, .oid [1, 2, 840, 113549, 1, 9, 16, 3, 30], true⟩]

/-- Constants of rfc8619.py the transcription of the standard has no value for. -/
def others : List String :=
  ["rfc8619.kda_hkdf_with_sha256",
   "rfc8619.kda_hkdf_with_sha384",
   "rfc8619.kda_hkdf_with_sha512"]

def standard : Standard := ⟨Verif.Rfc8619.asModule, entries, beyond, constants, others⟩

end Rfc8619
end Std
end Verif
