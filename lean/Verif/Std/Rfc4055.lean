import Verif.Spec.Grade
import Verif.Gen.Rfc4055
import Verif.Std.Rfc5280

/-! The ASN.1 of tools/std/rfc4055.asn1 (generated by tools/stdgen.py). -/

namespace Verif
namespace Std
namespace Rfc4055

open Asn1 Spec.X680

/-- `RSAPublicKey ::=` -/
def RSAPublicKey : Ty :=
  SEQUENCE [
    mandatory "modulus" INTEGER,
    mandatory "publicExponent" INTEGER]

/-- `HashAlgorithm ::=` -/
def HashAlgorithm : Ty :=
  Std.Rfc5280.AlgorithmIdentifier

/-- `MaskGenAlgorithm ::=` -/
def MaskGenAlgorithm : Ty :=
  Std.Rfc5280.AlgorithmIdentifier

/-- `RSASSA-PSS-params ::=` -/
def RSASSA_PSS_params : Ty :=
  SEQUENCE [
    default "hashAlgorithm" (explicit .context 0 HashAlgorithm) (.record (.ofList [(.oid [1, 3, 14, 3, 2, 26]), (holding NULL .null)])),
    default "maskGenAlgorithm" (explicit .context 1 MaskGenAlgorithm) (.record (.ofList [(.oid [1, 2, 840, 113549, 1, 1, 8]), (holding Std.Rfc5280.AlgorithmIdentifier (.record (.ofList [(.oid [1, 3, 14, 3, 2, 26]), (holding NULL .null)])))])),
    default "saltLength" (explicit .context 2 INTEGER) (.int 20),
    default "trailerField" (explicit .context 3 INTEGER) (.int 1)]

/-- `RSAES-OAEP-params ::=` -/
def RSAES_OAEP_params : Ty :=
  SEQUENCE [
    default "hashFunc" (explicit .context 0 Std.Rfc5280.AlgorithmIdentifier) (.record (.ofList [(.oid [1, 3, 14, 3, 2, 26]), (holding NULL .null)])),
    default "maskGenFunc" (explicit .context 1 Std.Rfc5280.AlgorithmIdentifier) (.record (.ofList [(.oid [1, 2, 840, 113549, 1, 1, 8]), (holding Std.Rfc5280.AlgorithmIdentifier (.record (.ofList [(.oid [1, 3, 14, 3, 2, 26]), (holding NULL .null)])))])),
    default "pSourceFunc" (explicit .context 2 Std.Rfc5280.AlgorithmIdentifier) (.record (.ofList [(.oid [1, 2, 840, 113549, 1, 1, 9]), (holding OCTET_STRING (.octets []))]))]

/-- Classes of rfc4055.py and the types of the standard they implement. -/
def entries : List Entry :=
  [⟨"rfc4055.RSAPublicKey", Verif.Rfc4055.RSAPublicKey, RSAPublicKey, .same, false⟩,
   ⟨"rfc4055.HashAlgorithm", Verif.Rfc4055.HashAlgorithm, HashAlgorithm, .same, false⟩,
   ⟨"rfc4055.MaskGenAlgorithm", Verif.Rfc4055.MaskGenAlgorithm, MaskGenAlgorithm, .same, false⟩,
   ⟨"rfc4055.RSAES_OAEP_params", Verif.Rfc4055.RSAES_OAEP_params, RSAES_OAEP_params, (.changed [48, 0]), false⟩,
   ⟨"rfc4055.RSASSA_PSS_params", Verif.Rfc4055.RSASSA_PSS_params, RSASSA_PSS_params, (.changed [48, 0]), false⟩]

/-- Classes of rfc4055.py the transcription of the standard has no type for. -/
def beyond : List String :=
  []

/-- Constants of rfc4055.py and the values the standard gives them. -/
def constants : List Constant :=
  [⟨"rfc4055.id_sha1", Verif.Rfc4055.id_sha1, OBJECT_IDENTIFIER, .oid [1, 3, 14, 3, 2, 26], true⟩,
   ⟨"rfc4055.id_sha256", Verif.Rfc4055.id_sha256, OBJECT_IDENTIFIER, .oid [2, 16, 840, 1, 101, 3, 4, 2, 1], true⟩,
   ⟨"rfc4055.id_sha384", Verif.Rfc4055.id_sha384, OBJECT_IDENTIFIER, .oid [2, 16, 840, 1, 101, 3, 4, 2, 2], true⟩,
   ⟨"rfc4055.id_sha512", Verif.Rfc4055.id_sha512, OBJECT_IDENTIFIER, .oid [2, 16, 840, 1, 101, 3, 4, 2, 3], true⟩,
   ⟨"rfc4055.id_sha224", Verif.Rfc4055.id_sha224, OBJECT_IDENTIFIER, .oid [2, 16, 840, 1, 101, 3, 4, 2, 4], true⟩,
   ⟨"rfc4055.rsaEncryption", Verif.Rfc4055.rsaEncryption, OBJECT_IDENTIFIER, .oid [1, 2, 840, 113549, 1, 1, 1], true⟩,
   ⟨"rfc4055.id_mgf1", Verif.Rfc4055.id_mgf1, OBJECT_IDENTIFIER, .oid [1, 2, 840, 113549, 1, 1, 8], true⟩,
   ⟨"rfc4055.id_RSAES_OAEP", Verif.Rfc4055.id_RSAES_OAEP, OBJECT_IDENTIFIER, .oid [1, 2, 840, 113549, 1, 1, 7], true⟩,
   ⟨"rfc4055.id_pSpecified", Verif.Rfc4055.id_pSpecified, OBJECT_IDENTIFIER, .oid [1, 2, 840, 113549, 1, 1, 9], true⟩,
   ⟨"rfc4055.id_RSASSA_PSS", Verif.Rfc4055.id_RSASSA_PSS, OBJECT_IDENTIFIER, .oid [1, 2, 840, 113549, 1, 1, 10], true⟩,
   ⟨"rfc4055.sha256WithRSAEncryption", Verif.Rfc4055.sha256WithRSAEncryption, OBJECT_IDENTIFIER, .oid [1, 2, 840, 113549, 1, 1, 11], true⟩,
   ⟨"rfc4055.sha384WithRSAEncryption", Verif.Rfc4055.sha384WithRSAEncryption, OBJECT_IDENTIFIER, .oid [1, 2, 840, 113549, 1, 1, 12], true⟩,
   ⟨"rfc4055.sha512WithRSAEncryption", Verif.Rfc4055.sha512WithRSAEncryption, OBJECT_IDENTIFIER, .oid [1, 2, 840, 113549, 1, 1, 13], true⟩,
   ⟨"rfc4055.sha224WithRSAEncryption", Verif.Rfc4055.sha224WithRSAEncryption, OBJECT_IDENTIFIER, .oid [1, 2, 840, 113549, 1, 1, 14], true⟩,
   ⟨"rfc4055.rSAES_OAEP_Default_Params", Verif.Rfc4055.rSAES_OAEP_Default_Params, Std.Rfc4055.RSAES_OAEP_params, (.record (.ofList [(.record (.ofList [(.oid [1, 3, 14, 3, 2, 26]), (holding NULL .null)])), (.record (.ofList [(.oid [1, 2, 840, 113549, 1, 1, 8]), (holding Std.Rfc5280.AlgorithmIdentifier (.record (.ofList [(.oid [1, 3, 14, 3, 2, 26]), (holding NULL .null)])))])), (.record (.ofList [(.oid [1, 2, 840, 113549, 1, 1, 9]), (holding OCTET_STRING (.octets []))]))])), false⟩,
   ⟨"rfc4055.rSASSA_PSS_Default_Params", Verif.Rfc4055.rSASSA_PSS_Default_Params, Std.Rfc4055.RSASSA_PSS_params, (.record (.ofList [(.record (.ofList [(.oid [1, 3, 14, 3, 2, 26]), (holding NULL .null)])), (.record (.ofList [(.oid [1, 2, 840, 113549, 1, 1, 8]), (holding Std.Rfc5280.AlgorithmIdentifier (.record (.ofList [(.oid [1, 3, 14, 3, 2, 26]), (holding NULL .null)])))])), (.int 20), (.int 1)])), false⟩,
   ⟨"rfc4055.sha1Identifier", Verif.Rfc4055.sha1Identifier.toObj, Std.Rfc5280.AlgorithmIdentifier, (.record (.ofList [(.oid [1, 3, 14, 3, 2, 26]), (holding NULL .null)])), true⟩,
   ⟨"rfc4055.sha224Identifier", Verif.Rfc4055.sha224Identifier.toObj, Std.Rfc5280.AlgorithmIdentifier, (.record (.ofList [(.oid [2, 16, 840, 1, 101, 3, 4, 2, 4]), (holding NULL .null)])), true⟩,
   ⟨"rfc4055.sha256Identifier", Verif.Rfc4055.sha256Identifier.toObj, Std.Rfc5280.AlgorithmIdentifier, (.record (.ofList [(.oid [2, 16, 840, 1, 101, 3, 4, 2, 1]), (holding NULL .null)])), true⟩,
   ⟨"rfc4055.sha384Identifier", Verif.Rfc4055.sha384Identifier.toObj, Std.Rfc5280.AlgorithmIdentifier, (.record (.ofList [(.oid [2, 16, 840, 1, 101, 3, 4, 2, 2]), (holding NULL .null)])), true⟩,
   ⟨"rfc4055.sha512Identifier", Verif.Rfc4055.sha512Identifier.toObj, Std.Rfc5280.AlgorithmIdentifier, (.record (.ofList [(.oid [2, 16, 840, 1, 101, 3, 4, 2, 3]), (holding NULL .null)])), true⟩,
   ⟨"rfc4055.mgf1SHA1Identifier", Verif.Rfc4055.mgf1SHA1Identifier.toObj, Std.Rfc5280.AlgorithmIdentifier, (.record (.ofList [(.oid [1, 2, 840, 113549, 1, 1, 8]), (holding Std.Rfc5280.AlgorithmIdentifier (.record (.ofList [(.oid [1, 3, 14, 3, 2, 26]), (holding NULL .null)])))])), true⟩,
   ⟨"rfc4055.mgf1SHA224Identifier", Verif.Rfc4055.mgf1SHA224Identifier.toObj, Std.Rfc5280.AlgorithmIdentifier, (.record (.ofList [(.oid [1, 2, 840, 113549, 1, 1, 8]), (holding Std.Rfc5280.AlgorithmIdentifier (.record (.ofList [(.oid [2, 16, 840, 1, 101, 3, 4, 2, 4]), (holding NULL .null)])))])), true⟩,
   ⟨"rfc4055.mgf1SHA256Identifier", Verif.Rfc4055.mgf1SHA256Identifier.toObj, Std.Rfc5280.AlgorithmIdentifier, (.record (.ofList [(.oid [1, 2, 840, 113549, 1, 1, 8]), (holding Std.Rfc5280.AlgorithmIdentifier (.record (.ofList [(.oid [2, 16, 840, 1, 101, 3, 4, 2, 1]), (holding NULL .null)])))])), true⟩,
   ⟨"rfc4055.mgf1SHA384Identifier", Verif.Rfc4055.mgf1SHA384Identifier.toObj, Std.Rfc5280.AlgorithmIdentifier, (.record (.ofList [(.oid [1, 2, 840, 113549, 1, 1, 8]), (holding Std.Rfc5280.AlgorithmIdentifier (.record (.ofList [(.oid [2, 16, 840, 1, 101, 3, 4, 2, 2]), (holding NULL .null)])))])), true⟩,
   ⟨"rfc4055.mgf1SHA512Identifier", Verif.Rfc4055.mgf1SHA512Identifier.toObj, Std.Rfc5280.AlgorithmIdentifier, (.record (.ofList [(.oid [1, 2, 840, 113549, 1, 1, 8]), (holding Std.Rfc5280.AlgorithmIdentifier (.record (.ofList [(.oid [2, 16, 840, 1, 101, 3, 4, 2, 3]), (holding NULL .null)])))])), true⟩,
   ⟨"rfc4055.pSpecifiedEmptyIdentifier", Verif.Rfc4055.pSpecifiedEmptyIdentifier.toObj, Std.Rfc5280.AlgorithmIdentifier, (.record (.ofList [(.oid [1, 2, 840, 113549, 1, 1, 9]), (holding OCTET_STRING (.octets []))])), true⟩,
   ⟨"rfc4055.rSAES_OAEP_Default_Identifier", Verif.Rfc4055.rSAES_OAEP_Default_Identifier.toObj, Std.Rfc5280.AlgorithmIdentifier, (.record (.ofList [(.oid [1, 2, 840, 113549, 1, 1, 7]), (holding Std.Rfc4055.RSAES_OAEP_params (.record (.ofList [(.record (.ofList [(.oid [1, 3, 14, 3, 2, 26]), (holding NULL .null)])), (.record (.ofList [(.oid [1, 2, 840, 113549, 1, 1, 8]), (holding Std.Rfc5280.AlgorithmIdentifier (.record (.ofList [(.oid [1, 3, 14, 3, 2, 26]), (holding NULL .null)])))])), (.record (.ofList [(.oid [1, 2, 840, 113549, 1, 1, 9]), (holding OCTET_STRING (.octets []))]))])))])), false⟩,
   ⟨"rfc4055.rSAES_OAEP_SHA224_Params", Verif.Rfc4055.rSAES_OAEP_SHA224_Params.toObj, Std.Rfc4055.RSAES_OAEP_params, (.record (.ofList [(.record (.ofList [(.oid [2, 16, 840, 1, 101, 3, 4, 2, 4]), (holding NULL .null)])), (.record (.ofList [(.oid [1, 2, 840, 113549, 1, 1, 8]), (holding Std.Rfc5280.AlgorithmIdentifier (.record (.ofList [(.oid [2, 16, 840, 1, 101, 3, 4, 2, 4]), (holding NULL .null)])))])), (.record (.ofList [(.oid [1, 2, 840, 113549, 1, 1, 9]), (holding OCTET_STRING (.octets []))]))])), true⟩,
   ⟨"rfc4055.rSAES_OAEP_SHA224_Identifier", Verif.Rfc4055.rSAES_OAEP_SHA224_Identifier.toObj, Std.Rfc5280.AlgorithmIdentifier, (.record (.ofList [(.oid [1, 2, 840, 113549, 1, 1, 7]), (holding Std.Rfc4055.RSAES_OAEP_params (.record (.ofList [(.record (.ofList [(.oid [2, 16, 840, 1, 101, 3, 4, 2, 4]), (holding NULL .null)])), (.record (.ofList [(.oid [1, 2, 840, 113549, 1, 1, 8]), (holding Std.Rfc5280.AlgorithmIdentifier (.record (.ofList [(.oid [2, 16, 840, 1, 101, 3, 4, 2, 4]), (holding NULL .null)])))])), (.record (.ofList [(.oid [1, 2, 840, 113549, 1, 1, 9]), (holding OCTET_STRING (.octets []))]))])))])), true⟩,
   ⟨"rfc4055.rSAES_OAEP_SHA256_Params", Verif.Rfc4055.rSAES_OAEP_SHA256_Params.toObj, Std.Rfc4055.RSAES_OAEP_params, (.record (.ofList [(.record (.ofList [(.oid [2, 16, 840, 1, 101, 3, 4, 2, 1]), (holding NULL .null)])), (.record (.ofList [(.oid [1, 2, 840, 113549, 1, 1, 8]), (holding Std.Rfc5280.AlgorithmIdentifier (.record (.ofList [(.oid [2, 16, 840, 1, 101, 3, 4, 2, 1]), (holding NULL .null)])))])), (.record (.ofList [(.oid [1, 2, 840, 113549, 1, 1, 9]), (holding OCTET_STRING (.octets []))]))])), true⟩,
   ⟨"rfc4055.rSAES_OAEP_SHA256_Identifier", Verif.Rfc4055.rSAES_OAEP_SHA256_Identifier.toObj, Std.Rfc5280.AlgorithmIdentifier, (.record (.ofList [(.oid [1, 2, 840, 113549, 1, 1, 7]), (holding Std.Rfc4055.RSAES_OAEP_params (.record (.ofList [(.record (.ofList [(.oid [2, 16, 840, 1, 101, 3, 4, 2, 1]), (holding NULL .null)])), (.record (.ofList [(.oid [1, 2, 840, 113549, 1, 1, 8]), (holding Std.Rfc5280.AlgorithmIdentifier (.record (.ofList [(.oid [2, 16, 840, 1, 101, 3, 4, 2, 1]), (holding NULL .null)])))])), (.record (.ofList [(.oid [1, 2, 840, 113549, 1, 1, 9]), (holding OCTET_STRING (.octets []))]))])))])), true⟩,
   ⟨"rfc4055.rSAES_OAEP_SHA384_Params", Verif.Rfc4055.rSAES_OAEP_SHA384_Params.toObj, Std.Rfc4055.RSAES_OAEP_params, (.record (.ofList [(.record (.ofList [(.oid [2, 16, 840, 1, 101, 3, 4, 2, 2]), (holding NULL .null)])), (.record (.ofList [(.oid [1, 2, 840, 113549, 1, 1, 8]), (holding Std.Rfc5280.AlgorithmIdentifier (.record (.ofList [(.oid [2, 16, 840, 1, 101, 3, 4, 2, 2]), (holding NULL .null)])))])), (.record (.ofList [(.oid [1, 2, 840, 113549, 1, 1, 9]), (holding OCTET_STRING (.octets []))]))])), true⟩,
   ⟨"rfc4055.rSAES_OAEP_SHA384_Identifier", Verif.Rfc4055.rSAES_OAEP_SHA384_Identifier.toObj, Std.Rfc5280.AlgorithmIdentifier, (.record (.ofList [(.oid [1, 2, 840, 113549, 1, 1, 7]), (holding Std.Rfc4055.RSAES_OAEP_params (.record (.ofList [(.record (.ofList [(.oid [2, 16, 840, 1, 101, 3, 4, 2, 2]), (holding NULL .null)])), (.record (.ofList [(.oid [1, 2, 840, 113549, 1, 1, 8]), (holding Std.Rfc5280.AlgorithmIdentifier (.record (.ofList [(.oid [2, 16, 840, 1, 101, 3, 4, 2, 2]), (holding NULL .null)])))])), (.record (.ofList [(.oid [1, 2, 840, 113549, 1, 1, 9]), (holding OCTET_STRING (.octets []))]))])))])), true⟩,
   ⟨"rfc4055.rSAES_OAEP_SHA512_Params", Verif.Rfc4055.rSAES_OAEP_SHA512_Params.toObj, Std.Rfc4055.RSAES_OAEP_params, (.record (.ofList [(.record (.ofList [(.oid [2, 16, 840, 1, 101, 3, 4, 2, 3]), (holding NULL .null)])), (.record (.ofList [(.oid [1, 2, 840, 113549, 1, 1, 8]), (holding Std.Rfc5280.AlgorithmIdentifier (.record (.ofList [(.oid [2, 16, 840, 1, 101, 3, 4, 2, 3]), (holding NULL .null)])))])), (.record (.ofList [(.oid [1, 2, 840, 113549, 1, 1, 9]), (holding OCTET_STRING (.octets []))]))])), true⟩,
   ⟨"rfc4055.rSAES_OAEP_SHA512_Identifier", Verif.Rfc4055.rSAES_OAEP_SHA512_Identifier.toObj, Std.Rfc5280.AlgorithmIdentifier, (.record (.ofList [(.oid [1, 2, 840, 113549, 1, 1, 7]), (holding Std.Rfc4055.RSAES_OAEP_params (.record (.ofList [(.record (.ofList [(.oid [2, 16, 840, 1, 101, 3, 4, 2, 3]), (holding NULL .null)])), (.record (.ofList [(.oid [1, 2, 840, 113549, 1, 1, 8]), (holding Std.Rfc5280.AlgorithmIdentifier (.record (.ofList [(.oid [2, 16, 840, 1, 101, 3, 4, 2, 3]), (holding NULL .null)])))])), (.record (.ofList [(.oid [1, 2, 840, 113549, 1, 1, 9]), (holding OCTET_STRING (.octets []))]))])))])), true⟩,
   ⟨"rfc4055.rSASSA_PSS_Default_Identifier", Verif.Rfc4055.rSASSA_PSS_Default_Identifier.toObj, Std.Rfc5280.AlgorithmIdentifier, (.record (.ofList [(.oid [1, 2, 840, 113549, 1, 1, 10]), (holding Std.Rfc4055.RSASSA_PSS_params (.record (.ofList [(.record (.ofList [(.oid [1, 3, 14, 3, 2, 26]), (holding NULL .null)])), (.record (.ofList [(.oid [1, 2, 840, 113549, 1, 1, 8]), (holding Std.Rfc5280.AlgorithmIdentifier (.record (.ofList [(.oid [1, 3, 14, 3, 2, 26]), (holding NULL .null)])))])), (.int 20), (.int 1)])))])), false⟩,
   ⟨"rfc4055.rSASSA_PSS_SHA224_Params", Verif.Rfc4055.rSASSA_PSS_SHA224_Params.toObj, Std.Rfc4055.RSASSA_PSS_params, (.record (.ofList [(.record (.ofList [(.oid [2, 16, 840, 1, 101, 3, 4, 2, 4]), (holding NULL .null)])), (.record (.ofList [(.oid [1, 2, 840, 113549, 1, 1, 8]), (holding Std.Rfc5280.AlgorithmIdentifier (.record (.ofList [(.oid [2, 16, 840, 1, 101, 3, 4, 2, 4]), (holding NULL .null)])))])), (.int 20), (.int 1)])), true⟩,
   ⟨"rfc4055.rSASSA_PSS_SHA224_Identifier", Verif.Rfc4055.rSASSA_PSS_SHA224_Identifier.toObj, Std.Rfc5280.AlgorithmIdentifier, (.record (.ofList [(.oid [1, 2, 840, 113549, 1, 1, 10]), (holding Std.Rfc4055.RSASSA_PSS_params (.record (.ofList [(.record (.ofList [(.oid [2, 16, 840, 1, 101, 3, 4, 2, 4]), (holding NULL .null)])), (.record (.ofList [(.oid [1, 2, 840, 113549, 1, 1, 8]), (holding Std.Rfc5280.AlgorithmIdentifier (.record (.ofList [(.oid [2, 16, 840, 1, 101, 3, 4, 2, 4]), (holding NULL .null)])))])), (.int 20), (.int 1)])))])), true⟩,
   ⟨"rfc4055.rSASSA_PSS_SHA256_Params", Verif.Rfc4055.rSASSA_PSS_SHA256_Params.toObj, Std.Rfc4055.RSASSA_PSS_params, (.record (.ofList [(.record (.ofList [(.oid [2, 16, 840, 1, 101, 3, 4, 2, 1]), (holding NULL .null)])), (.record (.ofList [(.oid [1, 2, 840, 113549, 1, 1, 8]), (holding Std.Rfc5280.AlgorithmIdentifier (.record (.ofList [(.oid [2, 16, 840, 1, 101, 3, 4, 2, 1]), (holding NULL .null)])))])), (.int 20), (.int 1)])), true⟩,
   ⟨"rfc4055.rSASSA_PSS_SHA256_Identifier", Verif.Rfc4055.rSASSA_PSS_SHA256_Identifier.toObj, Std.Rfc5280.AlgorithmIdentifier, (.record (.ofList [(.oid [1, 2, 840, 113549, 1, 1, 10]), (holding Std.Rfc4055.RSASSA_PSS_params (.record (.ofList [(.record (.ofList [(.oid [2, 16, 840, 1, 101, 3, 4, 2, 1]), (holding NULL .null)])), (.record (.ofList [(.oid [1, 2, 840, 113549, 1, 1, 8]), (holding Std.Rfc5280.AlgorithmIdentifier (.record (.ofList [(.oid [2, 16, 840, 1, 101, 3, 4, 2, 1]), (holding NULL .null)])))])), (.int 20), (.int 1)])))])), true⟩,
   ⟨"rfc4055.rSASSA_PSS_SHA384_Params", Verif.Rfc4055.rSASSA_PSS_SHA384_Params.toObj, Std.Rfc4055.RSASSA_PSS_params, (.record (.ofList [(.record (.ofList [(.oid [2, 16, 840, 1, 101, 3, 4, 2, 2]), (holding NULL .null)])), (.record (.ofList [(.oid [1, 2, 840, 113549, 1, 1, 8]), (holding Std.Rfc5280.AlgorithmIdentifier (.record (.ofList [(.oid [2, 16, 840, 1, 101, 3, 4, 2, 2]), (holding NULL .null)])))])), (.int 20), (.int 1)])), true⟩,
   ⟨"rfc4055.rSASSA_PSS_SHA384_Identifier", Verif.Rfc4055.rSASSA_PSS_SHA384_Identifier.toObj, Std.Rfc5280.AlgorithmIdentifier, (.record (.ofList [(.oid [1, 2, 840, 113549, 1, 1, 10]), (holding Std.Rfc4055.RSASSA_PSS_params (.record (.ofList [(.record (.ofList [(.oid [2, 16, 840, 1, 101, 3, 4, 2, 2]), (holding NULL .null)])), (.record (.ofList [(.oid [1, 2, 840, 113549, 1, 1, 8]), (holding Std.Rfc5280.AlgorithmIdentifier (.record (.ofList [(.oid [2, 16, 840, 1, 101, 3, 4, 2, 2]), (holding NULL .null)])))])), (.int 20), (.int 1)])))])), true⟩,
   ⟨"rfc4055.rSASSA_PSS_SHA512_Params", Verif.Rfc4055.rSASSA_PSS_SHA512_Params.toObj, Std.Rfc4055.RSASSA_PSS_params, (.record (.ofList [(.record (.ofList [(.oid [2, 16, 840, 1, 101, 3, 4, 2, 3]), (holding NULL .null)])), (.record (.ofList [(.oid [1, 2, 840, 113549, 1, 1, 8]), (holding Std.Rfc5280.AlgorithmIdentifier (.record (.ofList [(.oid [2, 16, 840, 1, 101, 3, 4, 2, 3]), (holding NULL .null)])))])), (.int 20), (.int 1)])), true⟩,
   ⟨"rfc4055.rSASSA_PSS_SHA512_Identifier", Verif.Rfc4055.rSASSA_PSS_SHA512_Identifier.toObj, Std.Rfc5280.AlgorithmIdentifier, (.record (.ofList [(.oid [1, 2, 840, 113549, 1, 1, 10]), (holding Std.Rfc4055.RSASSA_PSS_params (.record (.ofList [(.record (.ofList [(.oid [2, 16, 840, 1, 101, 3, 4, 2, 3]), (holding NULL .null)])), (.record (.ofList [(.oid [1, 2, 840, 113549, 1, 1, 8]), (holding Std.Rfc5280.AlgorithmIdentifier (.record (.ofList [(.oid [2, 16, 840, 1, 101, 3, 4, 2, 3]), (holding NULL .null)])))])), (.int 20), (.int 1)])))])), true⟩]

/-- Constants of rfc4055.py the transcription of the standard has no value for. -/
def others : List String :=
  []

def standard : Standard := ⟨Verif.Rfc4055.asModule, entries, beyond, constants, others⟩

end Rfc4055
end Std
end Verif
