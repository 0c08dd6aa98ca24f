import Verif.Spec.Grade
import Verif.Gen.Rfc2437
import Verif.Std.Rfc2459

/-! The ASN.1 of tools/std/rfc2437.asn1 (generated by tools/stdgen.py). -/

namespace Verif
namespace Std
namespace Rfc2437

open Asn1 Spec.X680

/-- `RSAPublicKey ::=` -/
def RSAPublicKey : Ty :=
  SEQUENCE [
    mandatory "modulus" INTEGER,
    mandatory "publicExponent" INTEGER]

/-- `Version ::=` -/
def Version : Ty :=
  INTEGER

/-- `RSAPrivateKey ::=` -/
def RSAPrivateKey : Ty :=
  SEQUENCE [
    mandatory "version" Version,
    mandatory "modulus" INTEGER,
    mandatory "publicExponent" INTEGER,
    mandatory "privateExponent" INTEGER,
    mandatory "prime1" INTEGER,
    mandatory "prime2" INTEGER,
    mandatory "exponent1" INTEGER,
    mandatory "exponent2" INTEGER,
    mandatory "coefficient" INTEGER]

/-- `RSAES-OAEP-params ::=` -/
def RSAES_OAEP_params : Ty :=
  SEQUENCE [
    default "hashFunc" (explicit .context 0 Std.Rfc2459.AlgorithmIdentifier) (.record (.ofList [(.oid [1, 3, 14, 3, 2, 26]), (holding NULL .null)])),
    default "maskGenFunc" (explicit .context 1 Std.Rfc2459.AlgorithmIdentifier) (.record (.ofList [(.oid [1, 2, 840, 113549, 1, 1, 8]), (holding Std.Rfc2459.AlgorithmIdentifier (.record (.ofList [(.oid [1, 3, 14, 3, 2, 26]), (holding NULL .null)])))])),
    default "pSourceFunc" (explicit .context 2 Std.Rfc2459.AlgorithmIdentifier) (.record (.ofList [(.oid [1, 2, 840, 113549, 1, 1, 9]), (holding OCTET_STRING (.octets []))]))]

/-- Classes of rfc2437.py and the types of the standard they implement. -/
def entries : List Entry :=
  [⟨"rfc2437.Version", Verif.Rfc2437.Version, Version, .same, false⟩,
   ⟨"rfc2437.RSAPrivateKey", Verif.Rfc2437.RSAPrivateKey, RSAPrivateKey, .same, false⟩,
   ⟨"rfc2437.RSAPublicKey", Verif.Rfc2437.RSAPublicKey, RSAPublicKey, .same, false⟩,
   ⟨"rfc2437.RSAES_OAEP_params", Verif.Rfc2437.RSAES_OAEP_params, RSAES_OAEP_params, (.refused [48, 0]), false⟩]

/-- Classes of rfc2437.py the transcription of the standard has no type for. -/
def beyond : List String :=
  []

/-- Constants of rfc2437.py and the values the standard gives them. -/
def constants : List Constant :=
  [⟨"rfc2437.pkcs_1", Verif.Rfc2437.pkcs_1, OBJECT_IDENTIFIER, .oid [1, 2, 840, 113549, 1, 1], true⟩,
   ⟨"rfc2437.rsaEncryption", Verif.Rfc2437.rsaEncryption, OBJECT_IDENTIFIER, .oid [1, 2, 840, 113549, 1, 1, 1], true⟩,
   ⟨"rfc2437.md2WithRSAEncryption", Verif.Rfc2437.md2WithRSAEncryption, OBJECT_IDENTIFIER, .oid [1, 2, 840, 113549, 1, 1, 2], true⟩,
   ⟨"rfc2437.md4WithRSAEncryption", Verif.Rfc2437.md4WithRSAEncryption, OBJECT_IDENTIFIER, .oid [1, 2, 840, 113549, 1, 1, 3], true⟩,
   ⟨"rfc2437.md5WithRSAEncryption", Verif.Rfc2437.md5WithRSAEncryption, OBJECT_IDENTIFIER, .oid [1, 2, 840, 113549, 1, 1, 4], true⟩,
   ⟨"rfc2437.sha1WithRSAEncryption", Verif.Rfc2437.sha1WithRSAEncryption, OBJECT_IDENTIFIER, .oid [1, 2, 840, 113549, 1, 1, 5], true⟩,
   ⟨"rfc2437.rsaOAEPEncryptionSET", Verif.Rfc2437.rsaOAEPEncryptionSET, OBJECT_IDENTIFIER, .oid [1, 2, 840, 113549, 1, 1, 6], true⟩,
   ⟨"rfc2437.id_RSAES_OAEP", Verif.Rfc2437.id_RSAES_OAEP, OBJECT_IDENTIFIER, .oid [1, 2, 840, 113549, 1, 1, 7], true⟩,
   ⟨"rfc2437.id_mgf1", Verif.Rfc2437.id_mgf1, OBJECT_IDENTIFIER, .oid [1, 2, 840, 113549, 1, 1, 8], true⟩,
   ⟨"rfc2437.id_pSpecified", Verif.Rfc2437.id_pSpecified, OBJECT_IDENTIFIER, .oid [1, 2, 840, 113549, 1, 1, 9], true⟩,
   ⟨"rfc2437.id_sha1", Verif.Rfc2437.id_sha1, OBJECT_IDENTIFIER, .oid [1, 3, 14, 3, 2, 26], true⟩]

/-- Constants of rfc2437.py the transcription of the standard has no value for. -/
def others : List String :=
  []

def standard : Standard := ⟨Verif.Rfc2437.asModule, entries, beyond, constants, others⟩

end Rfc2437
end Std
end Verif
