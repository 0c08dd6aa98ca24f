import Verif.Spec.Grade
import Verif.Gen.Rfc8410
import Verif.Std.Rfc5652

/-! The ASN.1 of tools/std/rfc8410.asn1 (generated by tools/stdgen.py). -/

namespace Verif
namespace Std
namespace Rfc8410

open Asn1 Spec.X680

/-- `CurvePrivateKey ::=` -/
def CurvePrivateKey : Ty :=
  OCTET_STRING

/-- Classes of rfc8410.py and the types of the standard they implement. -/
def entries : List Entry :=
  [⟨"rfc8410.SignatureAlgorithmIdentifier", Verif.Rfc8410.SignatureAlgorithmIdentifier, Std.Rfc5652.SignatureAlgorithmIdentifier, .same, false⟩,
   ⟨"rfc8410.KeyEncryptionAlgorithmIdentifier", Verif.Rfc8410.KeyEncryptionAlgorithmIdentifier, Std.Rfc5652.KeyEncryptionAlgorithmIdentifier, .same, false⟩,
   ⟨"rfc8410.CurvePrivateKey", Verif.Rfc8410.CurvePrivateKey, CurvePrivateKey, .same, false⟩]

/-- Classes of rfc8410.py the transcription of the standard has no type for. -/
def beyond : List String :=
  []

/-- Constants of rfc8410.py and the values the standard gives them. -/
def constants : List Constant :=
  [⟨"rfc8410.id_X25519", Verif.Rfc8410.id_X25519, OBJECT_IDENTIFIER, .oid [1, 3, 101, 110], true⟩,
   ⟨"rfc8410.id_X448", Verif.Rfc8410.id_X448, OBJECT_IDENTIFIER, .oid [1, 3, 101, 111], true⟩,
   ⟨"rfc8410.id_Ed25519", Verif.Rfc8410.id_Ed25519, OBJECT_IDENTIFIER, .oid [1, 3, 101, 112], true⟩,
   ⟨"rfc8410.id_Ed448", Verif.Rfc8410.id_Ed448, OBJECT_IDENTIFIER, .oid [1, 3, 101, 113], true⟩,
   ⟨"rfc8410.id_sha512", Verif.Rfc8410.id_sha512, OBJECT_IDENTIFIER, .oid [2, 16, 840, 1, 101, 3, 4, 2, 3], true⟩,
   ⟨"rfc8410.id_aes128_wrap", Verif.Rfc8410.id_aes128_wrap, OBJECT_IDENTIFIER, .oid [2, 16, 840, 1, 101, 3, 4, 1, 5], true⟩,
   ⟨"rfc8410.id_aes256_wrap", Verif.Rfc8410.id_aes256_wrap, OBJECT_IDENTIFIER, .oid [2, 16, 840, 1, 101, 3, 4, 1, 45], true⟩]

/-- Constants of rfc8410.py the transcription of the standard has no value for. -/
def others : List String :=
  []

def standard : Standard := ⟨Verif.Rfc8410.asModule, entries, beyond, constants, others⟩

end Rfc8410
end Std
end Verif
