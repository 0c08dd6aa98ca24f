import Verif.Spec.Grade
import Verif.Gen.Rfc3565
import Verif.Std.Rfc5280

/-! The ASN.1 of tools/std/rfc3565.asn1 (generated by tools/stdgen.py). -/

namespace Verif
namespace Std
namespace Rfc3565

open Asn1 Spec.X680

/-- `AES-IV ::=` -/
def AES_IV : Ty :=
  constrained (SIZE 16 16) OCTET_STRING

/-- Classes of rfc3565.py and the types of the standard they implement. -/
def entries : List Entry :=
  [⟨"rfc3565.AlgorithmIdentifier", Verif.Rfc3565.AlgorithmIdentifier, Std.Rfc5280.AlgorithmIdentifier, .same, false⟩,
   ⟨"rfc3565.AES_IV", Verif.Rfc3565.AES_IV, AES_IV, .same, false⟩]

/-- Classes of rfc3565.py the transcription of the standard has no type for. -/
def beyond : List String :=
  []

/-- Constants of rfc3565.py and the values the standard gives them. -/
def constants : List Constant :=
  [⟨"rfc3565.id_aes128_CBC", Verif.Rfc3565.id_aes128_CBC, OBJECT_IDENTIFIER, .oid [2, 16, 840, 1, 101, 3, 4, 1, 2], true⟩,
   ⟨"rfc3565.id_aes192_CBC", Verif.Rfc3565.id_aes192_CBC, OBJECT_IDENTIFIER, .oid [2, 16, 840, 1, 101, 3, 4, 1, 22], true⟩,
   ⟨"rfc3565.id_aes256_CBC", Verif.Rfc3565.id_aes256_CBC, OBJECT_IDENTIFIER, .oid [2, 16, 840, 1, 101, 3, 4, 1, 42], true⟩,
   ⟨"rfc3565.id_aes128_wrap", Verif.Rfc3565.id_aes128_wrap, OBJECT_IDENTIFIER, .oid [2, 16, 840, 1, 101, 3, 4, 1, 5], true⟩,
   ⟨"rfc3565.id_aes192_wrap", Verif.Rfc3565.id_aes192_wrap, OBJECT_IDENTIFIER, .oid [2, 16, 840, 1, 101, 3, 4, 1, 25], true⟩,
   ⟨"rfc3565.id_aes256_wrap", Verif.Rfc3565.id_aes256_wrap, OBJECT_IDENTIFIER, .oid [2, 16, 840, 1, 101, 3, 4, 1, 45], true⟩]

/-- Constants of rfc3565.py the transcription of the standard has no value for. -/
def others : List String :=
  []

def standard : Standard := ⟨Verif.Rfc3565.asModule, entries, beyond, constants, others⟩

end Rfc3565
end Std
end Verif
