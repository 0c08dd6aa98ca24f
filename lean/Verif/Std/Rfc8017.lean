import Verif.Spec.Grade
import Verif.Gen.Rfc8017
import Verif.Std.Rfc5280

/-! The ASN.1 of tools/std/rfc8017.asn1 (generated by tools/stdgen.py). -/

namespace Verif
namespace Std
namespace Rfc8017

open Asn1 Spec.X680

/-- `RSAPublicKey ::=` -/
def RSAPublicKey : Ty :=
  SEQUENCE [
    mandatory "modulus" INTEGER,
    mandatory "publicExponent" INTEGER]

/-- `Version ::=` -/
def Version : Ty :=
  named [("two-prime", 0), ("multi", 1)] INTEGER

/-- `OtherPrimeInfo ::=` -/
def OtherPrimeInfo : Ty :=
  SEQUENCE [
    mandatory "prime" INTEGER,
    mandatory "exponent" INTEGER,
    mandatory "coefficient" INTEGER]

/-- `OtherPrimeInfos ::=` -/
def OtherPrimeInfos : Ty :=
  constrained (SIZE_MAX 1) (SEQUENCE_OF OtherPrimeInfo)

/-- `RSAPrivateKey ::=` -/
def RSAPrivateKey : Ty :=
  SEQUENCE [
    mandatory "version" Version,
    mandatory "modulus" INTEGER,
    mandatory "publicExponent" INTEGER,
    mandatory "privateExponent" INTEGER,
    mandatory "prime1" INTEGER,
    mandatory "prime2" INTEGER,
    mandatory "exponent1" INTEGER,
    mandatory "exponent2" INTEGER,
    mandatory "coefficient" INTEGER,
    optional "otherPrimeInfos" OtherPrimeInfos]

/-- `HashAlgorithm ::=` -/
def HashAlgorithm : Ty :=
  Std.Rfc5280.AlgorithmIdentifier

/-- `MaskGenAlgorithm ::=` -/
def MaskGenAlgorithm : Ty :=
  Std.Rfc5280.AlgorithmIdentifier

/-- `PSourceAlgorithm ::=` -/
def PSourceAlgorithm : Ty :=
  Std.Rfc5280.AlgorithmIdentifier

/-- `DigestAlgorithm ::=` -/
def DigestAlgorithm : Ty :=
  Std.Rfc5280.AlgorithmIdentifier

/-- `EncodingParameters ::=` -/
def EncodingParameters : Ty :=
  constrained (SIZE_MAX 0) OCTET_STRING

/-- `TrailerField ::=` -/
def TrailerField : Ty :=
  named [("trailerFieldBC", 1)] INTEGER

/-- `DigestInfo ::=` -/
def DigestInfo : Ty :=
  SEQUENCE [
    mandatory "digestAlgorithm" DigestAlgorithm,
    mandatory "digest" OCTET_STRING]

/-- `RSAES-OAEP-params ::=` -/
def RSAES_OAEP_params : Ty :=
  SEQUENCE [
    default "hashAlgorithm" (explicit .context 0 HashAlgorithm) (.record (.ofList [(.oid [1, 3, 14, 3, 2, 26]), (holding NULL .null)])),
    default "maskGenAlgorithm" (explicit .context 1 MaskGenAlgorithm) (.record (.ofList [(.oid [1, 2, 840, 113549, 1, 1, 8]), (holding Std.Rfc8017.HashAlgorithm (.record (.ofList [(.oid [1, 3, 14, 3, 2, 26]), (holding NULL .null)])))])),
    default "pSourceAlgorithm" (explicit .context 2 PSourceAlgorithm) (.record (.ofList [(.oid [1, 2, 840, 113549, 1, 1, 9]), (holding Std.Rfc8017.EncodingParameters (.octets []))]))]

/-- `RSASSA-PSS-params ::=` -/
def RSASSA_PSS_params : Ty :=
  SEQUENCE [
    default "hashAlgorithm" (explicit .context 0 HashAlgorithm) (.record (.ofList [(.oid [1, 3, 14, 3, 2, 26]), (holding NULL .null)])),
    default "maskGenAlgorithm" (explicit .context 1 MaskGenAlgorithm) (.record (.ofList [(.oid [1, 2, 840, 113549, 1, 1, 8]), (holding Std.Rfc8017.HashAlgorithm (.record (.ofList [(.oid [1, 3, 14, 3, 2, 26]), (holding NULL .null)])))])),
    default "saltLength" (explicit .context 2 INTEGER) (.int 20),
    default "trailerField" (explicit .context 3 TrailerField) (.int 1)]

/-- Classes of rfc8017.py and the types of the standard they implement. -/
def entries : List Entry :=
  [⟨"rfc8017.AlgorithmIdentifier", Verif.Rfc8017.AlgorithmIdentifier, Std.Rfc5280.AlgorithmIdentifier, .same, false⟩,
   ⟨"rfc8017.DigestAlgorithm", Verif.Rfc8017.DigestAlgorithm, DigestAlgorithm, .same, false⟩,
   ⟨"rfc8017.HashAlgorithm", Verif.Rfc8017.HashAlgorithm, HashAlgorithm, .same, false⟩,
   ⟨"rfc8017.MaskGenAlgorithm", Verif.Rfc8017.MaskGenAlgorithm, MaskGenAlgorithm, .same, false⟩,
   ⟨"rfc8017.PSourceAlgorithm", Verif.Rfc8017.PSourceAlgorithm, PSourceAlgorithm, .same, false⟩,
   ⟨"rfc8017.EncodingParameters", Verif.Rfc8017.EncodingParameters, EncodingParameters, .same, false⟩,
   ⟨"rfc8017.Version", Verif.Rfc8017.Version, Version, .same, false⟩,
   ⟨"rfc8017.TrailerField", Verif.Rfc8017.TrailerField, TrailerField, .same, false⟩,
   ⟨"rfc8017.RSAPublicKey", Verif.Rfc8017.RSAPublicKey, RSAPublicKey, .same, false⟩,
   ⟨"rfc8017.OtherPrimeInfo", Verif.Rfc8017.OtherPrimeInfo, OtherPrimeInfo, .same, false⟩,
   ⟨"rfc8017.OtherPrimeInfos", Verif.Rfc8017.OtherPrimeInfos, OtherPrimeInfos, .same, false⟩,
   ⟨"rfc8017.RSAPrivateKey", Verif.Rfc8017.RSAPrivateKey, RSAPrivateKey, .same, false⟩,
   ⟨"rfc8017.RSAES_OAEP_params", Verif.Rfc8017.RSAES_OAEP_params, RSAES_OAEP_params, (.changed [48, 0]), true⟩,
   ⟨"rfc8017.RSASSA_PSS_params", Verif.Rfc8017.RSASSA_PSS_params, RSASSA_PSS_params, (.changed [48, 0]), true⟩,
   ⟨"rfc8017.DigestInfo", Verif.Rfc8017.DigestInfo, DigestInfo, .same, false⟩]

/-- Classes of rfc8017.py the transcription of the standard has no type for. -/
def beyond : List String :=
  []

/-- Constants of rfc8017.py and the values the standard gives them. -/
def constants : List Constant :=
  [⟨"rfc8017.id_sha256", Verif.Rfc8017.id_sha256, OBJECT_IDENTIFIER, .oid [2, 16, 840, 1, 101, 3, 4, 2, 1], true⟩,
   ⟨"rfc8017.id_sha384", Verif.Rfc8017.id_sha384, OBJECT_IDENTIFIER, .oid [2, 16, 840, 1, 101, 3, 4, 2, 2], true⟩,
   ⟨"rfc8017.id_sha512", Verif.Rfc8017.id_sha512, OBJECT_IDENTIFIER, .oid [2, 16, 840, 1, 101, 3, 4, 2, 3], true⟩,
   ⟨"rfc8017.id_sha224", Verif.Rfc8017.id_sha224, OBJECT_IDENTIFIER, .oid [2, 16, 840, 1, 101, 3, 4, 2, 4], true⟩,
   ⟨"rfc8017.id_sha512_224", Verif.Rfc8017.id_sha512_224, OBJECT_IDENTIFIER, .oid [2, 16, 840, 1, 101, 3, 4, 2, 5], true⟩,
   ⟨"rfc8017.id_sha512_256", Verif.Rfc8017.id_sha512_256, OBJECT_IDENTIFIER, .oid [2, 16, 840, 1, 101, 3, 4, 2, 6], true⟩,
   ⟨"rfc8017.pkcs_1", Verif.Rfc8017.pkcs_1, OBJECT_IDENTIFIER, .oid [1, 2, 840, 113549, 1, 1], true⟩,
   ⟨"rfc8017.rsaEncryption", Verif.Rfc8017.rsaEncryption, OBJECT_IDENTIFIER, .oid [1, 2, 840, 113549, 1, 1, 1], true⟩,
   ⟨"rfc8017.id_RSAES_OAEP", Verif.Rfc8017.id_RSAES_OAEP, OBJECT_IDENTIFIER, .oid [1, 2, 840, 113549, 1, 1, 7], true⟩,
   ⟨"rfc8017.id_pSpecified", Verif.Rfc8017.id_pSpecified, OBJECT_IDENTIFIER, .oid [1, 2, 840, 113549, 1, 1, 9], true⟩,
   ⟨"rfc8017.id_RSASSA_PSS", Verif.Rfc8017.id_RSASSA_PSS, OBJECT_IDENTIFIER, .oid [1, 2, 840, 113549, 1, 1, 10], true⟩,
   ⟨"rfc8017.md2WithRSAEncryption", Verif.Rfc8017.md2WithRSAEncryption, OBJECT_IDENTIFIER, .oid [1, 2, 840, 113549, 1, 1, 2], true⟩,
   ⟨"rfc8017.md5WithRSAEncryption", Verif.Rfc8017.md5WithRSAEncryption, OBJECT_IDENTIFIER, .oid [1, 2, 840, 113549, 1, 1, 4], true⟩,
   ⟨"rfc8017.sha1WithRSAEncryption", Verif.Rfc8017.sha1WithRSAEncryption, OBJECT_IDENTIFIER, .oid [1, 2, 840, 113549, 1, 1, 5], true⟩,
   ⟨"rfc8017.sha224WithRSAEncryption", Verif.Rfc8017.sha224WithRSAEncryption, OBJECT_IDENTIFIER, .oid [1, 2, 840, 113549, 1, 1, 14], true⟩,
   ⟨"rfc8017.sha256WithRSAEncryption", Verif.Rfc8017.sha256WithRSAEncryption, OBJECT_IDENTIFIER, .oid [1, 2, 840, 113549, 1, 1, 11], true⟩,
   ⟨"rfc8017.sha384WithRSAEncryption", Verif.Rfc8017.sha384WithRSAEncryption, OBJECT_IDENTIFIER, .oid [1, 2, 840, 113549, 1, 1, 12], true⟩,
   ⟨"rfc8017.sha512WithRSAEncryption", Verif.Rfc8017.sha512WithRSAEncryption, OBJECT_IDENTIFIER, .oid [1, 2, 840, 113549, 1, 1, 13], true⟩,
   ⟨"rfc8017.sha512_224WithRSAEncryption", Verif.Rfc8017.sha512_224WithRSAEncryption, OBJECT_IDENTIFIER, .oid [1, 2, 840, 113549, 1, 1, 15], true⟩,
   ⟨"rfc8017.sha512_256WithRSAEncryption", Verif.Rfc8017.sha512_256WithRSAEncryption, OBJECT_IDENTIFIER, .oid [1, 2, 840, 113549, 1, 1, 16], true⟩,
   ⟨"rfc8017.id_sha1", Verif.Rfc8017.id_sha1, OBJECT_IDENTIFIER, .oid [1, 3, 14, 3, 2, 26], true⟩,
   ⟨"rfc8017.id_md2", Verif.Rfc8017.id_md2, OBJECT_IDENTIFIER, .oid [1, 2, 840, 113549, 2, 2], true⟩,
   ⟨"rfc8017.id_md5", Verif.Rfc8017.id_md5, OBJECT_IDENTIFIER, .oid [1, 2, 840, 113549, 2, 5], true⟩,
   ⟨"rfc8017.id_mgf1", Verif.Rfc8017.id_mgf1, OBJECT_IDENTIFIER, .oid [1, 2, 840, 113549, 1, 1, 8], true⟩,
   ⟨"rfc8017.emptyString", Verif.Rfc8017.emptyString, Std.Rfc8017.EncodingParameters, (.octets []), true⟩,
   ⟨"rfc8017.sha1", Verif.Rfc8017.sha1.toObj, Std.Rfc8017.HashAlgorithm, (.record (.ofList [(.oid [1, 3, 14, 3, 2, 26]), (holding NULL .null)])), true⟩,
   ⟨"rfc8017.mgf1SHA1", Verif.Rfc8017.mgf1SHA1.toObj, Std.Rfc8017.MaskGenAlgorithm, (.record (.ofList [(.oid [1, 2, 840, 113549, 1, 1, 8]), (holding Std.Rfc8017.HashAlgorithm (.record (.ofList [(.oid [1, 3, 14, 3, 2, 26]), (holding NULL .null)])))])), true⟩,
   ⟨"rfc8017.pSpecifiedEmpty", Verif.Rfc8017.pSpecifiedEmpty.toObj, Std.Rfc8017.PSourceAlgorithm, (.record (.ofList [(.oid [1, 2, 840, 113549, 1, 1, 9]), (holding Std.Rfc8017.EncodingParameters (.octets []))])), true⟩,
   ⟨"rfc8017.rSAES_OAEP_Default_Identifier", Verif.Rfc8017.rSAES_OAEP_Default_Identifier.toObj, Std.Rfc5280.AlgorithmIdentifier, (.record (.ofList [(.oid [1, 2, 840, 113549, 1, 1, 7]), (holding Std.Rfc8017.RSAES_OAEP_params (.record (.ofList [(.record (.ofList [(.oid [1, 3, 14, 3, 2, 26]), (holding NULL .null)])), (.record (.ofList [(.oid [1, 2, 840, 113549, 1, 1, 8]), (holding Std.Rfc8017.HashAlgorithm (.record (.ofList [(.oid [1, 3, 14, 3, 2, 26]), (holding NULL .null)])))])), (.record (.ofList [(.oid [1, 2, 840, 113549, 1, 1, 9]), (holding Std.Rfc8017.EncodingParameters (.octets []))]))])))])), false⟩,
   ⟨"rfc8017.rSASSA_PSS_Default_Identifier", Verif.Rfc8017.rSASSA_PSS_Default_Identifier.toObj, Std.Rfc5280.AlgorithmIdentifier, (.record (.ofList [(.oid [1, 2, 840, 113549, 1, 1, 10]), (holding Std.Rfc8017.RSASSA_PSS_params (.record (.ofList [(.record (.ofList [(.oid [1, 3, 14, 3, 2, 26]), (holding NULL .null)])), (.record (.ofList [(.oid [1, 2, 840, 113549, 1, 1, 8]), (holding Std.Rfc8017.HashAlgorithm (.record (.ofList [(.oid [1, 3, 14, 3, 2, 26]), (holding NULL .null)])))])), (.int 20), (.int 1)])))])), false⟩]

/-- Constants of rfc8017.py the transcription of the standard has no value for. -/
def others : List String :=
  ["rfc8017.hashAlgs",
   "rfc8017.SHA1Parameters"]

def standard : Standard := ⟨Verif.Rfc8017.asModule, entries, beyond, constants, others⟩

end Rfc8017
end Std
end Verif
