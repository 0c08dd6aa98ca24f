import Verif.Spec.Grade
import Verif.Gen.Rfc5649
import Verif.Std.Rfc5280

/-! The ASN.1 of tools/std/rfc5649.asn1 (generated by tools/stdgen.py). -/

namespace Verif
namespace Std
namespace Rfc5649

open Asn1 Spec.X680

/-- Classes of rfc5649.py and the types of the standard they implement. -/
def entries : List Entry :=
  [⟨"rfc5649.AlgorithmIdentifier", Verif.Rfc5649.AlgorithmIdentifier, Std.Rfc5280.AlgorithmIdentifier, .same, false⟩]

/-- Classes of rfc5649.py the transcription of the standard has no type for. -/
def beyond : List String :=
  []

/-- Constants of rfc5649.py and the values the standard gives them. -/
def constants : List Constant :=
  [⟨"rfc5649.id_aes128_wrap", Verif.Rfc5649.id_aes128_wrap, OBJECT_IDENTIFIER, .oid [2, 16, 840, 1, 101, 3, 4, 1, 5], true⟩,
   ⟨"rfc5649.id_aes192_wrap", Verif.Rfc5649.id_aes192_wrap, OBJECT_IDENTIFIER, .oid [2, 16, 840, 1, 101, 3, 4, 1, 25], true⟩,
   ⟨"rfc5649.id_aes256_wrap", Verif.Rfc5649.id_aes256_wrap, OBJECT_IDENTIFIER, .oid [2, 16, 840, 1, 101, 3, 4, 1, 45], true⟩,
   ⟨"rfc5649.id_aes128_wrap_pad", Verif.Rfc5649.id_aes128_wrap_pad, OBJECT_IDENTIFIER, .oid [2, 16, 840, 1, 101, 3, 4, 1, 8], true⟩,
   ⟨"rfc5649.id_aes192_wrap_pad", Verif.Rfc5649.id_aes192_wrap_pad, OBJECT_IDENTIFIER, .oid [2, 16, 840, 1, 101, 3, 4, 1, 28], true⟩,
   ⟨"rfc5649.id_aes256_wrap_pad", Verif.Rfc5649.id_aes256_wrap_pad, OBJECT_IDENTIFIER, .oid [2, 16, 840, 1, 101, 3, 4, 1, 48], true⟩]

/-- Constants of rfc5649.py the transcription of the standard has no value for. -/
def others : List String :=
  []

def standard : Standard := ⟨Verif.Rfc5649.asModule, entries, beyond, constants, others⟩

end Rfc5649
end Std
end Verif
