import Verif.Spec.Grade
import Verif.Gen.Rfc8419

/-! The ASN.1 of tools/std/rfc8419.asn1 (generated by tools/stdgen.py). -/

namespace Verif
namespace Std
namespace Rfc8419

open Asn1 Spec.X680

/-- `ShakeOutputLen ::=` -/
def ShakeOutputLen : Ty :=
  INTEGER

/-- Classes of rfc8419.py and the types of the standard they implement. -/
def entries : List Entry :=
  [⟨"rfc8419.ShakeOutputLen", Verif.Rfc8419.ShakeOutputLen, ShakeOutputLen, .same, false⟩]

/-- Classes of rfc8419.py the transcription of the standard has no type for. -/
def beyond : List String :=
  []

/-- Constants of rfc8419.py and the values the standard gives them. -/
def constants : List Constant :=
  [⟨"rfc8419.id_Ed25519", Verif.Rfc8419.id_Ed25519, OBJECT_IDENTIFIER, .oid [1, 3, 101, 112], true⟩,
   ⟨"rfc8419.id_Ed448", Verif.Rfc8419.id_Ed448, OBJECT_IDENTIFIER, .oid [1, 3, 101, 113], true⟩,
   ⟨"rfc8419.hashAlgs", Verif.Rfc8419.hashAlgs, OBJECT_IDENTIFIER, .oid [2, 16, 840, 1, 101, 3, 4, 2], true⟩,
   ⟨"rfc8419.id_sha512", Verif.Rfc8419.id_sha512, OBJECT_IDENTIFIER, .oid [2, 16, 840, 1, 101, 3, 4, 2, 3], true⟩,
   ⟨"rfc8419.id_shake256", Verif.Rfc8419.id_shake256, OBJECT_IDENTIFIER, .oid [2, 16, 840, 1, 101, 3, 4, 2, 12], true⟩,
   ⟨"rfc8419.id_shake256_len", Verif.Rfc8419.id_shake256_len, OBJECT_IDENTIFIER, .oid [2, 16, 840, 1, 101, 3, 4, 2, 18], true⟩]

/-- Constants of rfc8419.py the transcription of the standard has no value for. -/
def others : List String :=
  ["rfc8419.sigAlg_Ed25519",
   "rfc8419.sigAlg_Ed448",
   "rfc8419.hashAlg_SHA_512",
   "rfc8419.hashAlg_SHAKE256",
   "rfc8419.hashAlg_SHAKE256_LEN"]

def standard : Standard := ⟨Verif.Rfc8419.asModule, entries, beyond, constants, others⟩

end Rfc8419
end Std
end Verif
