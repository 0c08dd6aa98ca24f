import Verif.Spec.Grade
import Verif.Gen.Rfc8018
import Verif.Std.Rfc5280

/-! The ASN.1 of tools/std/rfc8018.asn1 (generated by tools/stdgen.py). -/

namespace Verif
namespace Std
namespace Rfc8018

open Asn1 Spec.X680

/-- `PBKDF2-params ::=` -/
def PBKDF2_params : Ty :=
  SEQUENCE [
    mandatory "salt" (CHOICE [
      mandatory "specified" OCTET_STRING,
      mandatory "otherSource" Std.Rfc5280.AlgorithmIdentifier]),
    mandatory "iterationCount" (constrained (RANGE_MAX 1) INTEGER),
    optional "keyLength" (constrained (RANGE_MAX 1) INTEGER),
    default "prf" Std.Rfc5280.AlgorithmIdentifier (.record (.ofList [(.oid [1, 2, 840, 113549, 2, 7]), (holding NULL .null)]))]

/-- `PBEParameter ::=` -/
def PBEParameter : Ty :=
  SEQUENCE [
    mandatory "salt" (constrained (SIZE 8 8) OCTET_STRING),
    mandatory "iterationCount" INTEGER]

/-- `PBES2-params ::=` -/
def PBES2_params : Ty :=
  SEQUENCE [
    mandatory "keyDerivationFunc" Std.Rfc5280.AlgorithmIdentifier,
    mandatory "encryptionScheme" Std.Rfc5280.AlgorithmIdentifier]

/-- `PBMAC1-params ::=` -/
def PBMAC1_params : Ty :=
  SEQUENCE [
    mandatory "keyDerivationFunc" Std.Rfc5280.AlgorithmIdentifier,
    mandatory "messageAuthScheme" Std.Rfc5280.AlgorithmIdentifier]

/-- `RC2-CBC-Parameter ::=` -/
def RC2_CBC_Parameter : Ty :=
  SEQUENCE [
    optional "rc2ParameterVersion" INTEGER,
    mandatory "iv" (constrained (SIZE 8 8) OCTET_STRING)]

/-- `RC5-CBC-Parameters ::=` -/
def RC5_CBC_Parameters : Ty :=
  SEQUENCE [
    mandatory "version" (constrained (VALUES [.int 16]) (named [("v1-0", 16)] INTEGER)),
    mandatory "rounds" (constrained (RANGE 8 127) INTEGER),
    mandatory "blockSizeInBits" (constrained (VALUES [.int 64, .int 128]) INTEGER),
    optional "iv" OCTET_STRING]

/-- Classes of rfc8018.py and the types of the standard they implement. -/
def entries : List Entry :=
  [⟨"rfc8018.AlgorithmIdentifier", Verif.Rfc8018.AlgorithmIdentifier, Std.Rfc5280.AlgorithmIdentifier, .same, false⟩,
   ⟨"rfc8018.PBEParameter", Verif.Rfc8018.PBEParameter, PBEParameter, .same, false⟩,
   ⟨"rfc8018.PBES2_params", Verif.Rfc8018.PBES2_params, PBES2_params, .same, false⟩,
   ⟨"rfc8018.PBMAC1_params", Verif.Rfc8018.PBMAC1_params, PBMAC1_params, .same, false⟩,
   ⟨"rfc8018.PBKDF2_params", Verif.Rfc8018.PBKDF2_params, PBKDF2_params, .same, false⟩,
   ⟨"rfc8018.RC2_CBC_Parameter", Verif.Rfc8018.RC2_CBC_Parameter, RC2_CBC_Parameter, .same, false⟩,
   ⟨"rfc8018.RC5_CBC_Parameters", Verif.Rfc8018.RC5_CBC_Parameters, RC5_CBC_Parameters, .same, true⟩]

/-- Classes of rfc8018.py the transcription of the standard has no type for. -/
def beyond : List String :=
  ["rfc8018.AES_IV",
   "rfc8018.DES_IV"]

/-- Constants of rfc8018.py and the values the standard gives them. -/
def constants : List Constant :=
  [⟨"rfc8018.nistAlgorithms", Verif.Rfc8018.nistAlgorithms, OBJECT_IDENTIFIER, .oid [2, 16, 840, 1, 101, 3, 4], true⟩,
   ⟨"rfc8018.aes", Verif.Rfc8018.aes, OBJECT_IDENTIFIER, .oid [2, 16, 840, 1, 101, 3, 4, 1], true⟩,
   ⟨"rfc8018.oiw", Verif.Rfc8018.oiw, OBJECT_IDENTIFIER, .oid [1, 3, 14], true⟩,
   ⟨"rfc8018.rsadsi", Verif.Rfc8018.rsadsi, OBJECT_IDENTIFIER, .oid [1, 2, 840, 113549], true⟩,
   ⟨"rfc8018.pkcs", Verif.Rfc8018.pkcs, OBJECT_IDENTIFIER, .oid [1, 2, 840, 113549, 1], true⟩,
   ⟨"rfc8018.digestAlgorithm", Verif.Rfc8018.digestAlgorithm, OBJECT_IDENTIFIER, .oid [1, 2, 840, 113549, 2], true⟩,
   ⟨"rfc8018.encryptionAlgorithm", Verif.Rfc8018.encryptionAlgorithm, OBJECT_IDENTIFIER, .oid [1, 2, 840, 113549, 3], true⟩,
   ⟨"rfc8018.pkcs_5", Verif.Rfc8018.pkcs_5, OBJECT_IDENTIFIER, .oid [1, 2, 840, 113549, 1, 5], true⟩,
   ⟨"rfc8018.id_hmacWithSHA1", Verif.Rfc8018.id_hmacWithSHA1, OBJECT_IDENTIFIER, .oid [1, 2, 840, 113549, 2, 7], true⟩,
   ⟨"rfc8018.id_hmacWithSHA224", Verif.Rfc8018.id_hmacWithSHA224, OBJECT_IDENTIFIER, .oid [1, 2, 840, 113549, 2, 8], true⟩,
   ⟨"rfc8018.id_hmacWithSHA256", Verif.Rfc8018.id_hmacWithSHA256, OBJECT_IDENTIFIER, .oid [1, 2, 840, 113549, 2, 9], true⟩,
   ⟨"rfc8018.id_hmacWithSHA384", Verif.Rfc8018.id_hmacWithSHA384, OBJECT_IDENTIFIER, .oid [1, 2, 840, 113549, 2, 10], true⟩,
   ⟨"rfc8018.id_hmacWithSHA512", Verif.Rfc8018.id_hmacWithSHA512, OBJECT_IDENTIFIER, .oid [1, 2, 840, 113549, 2, 11], true⟩,
   ⟨"rfc8018.id_hmacWithSHA512_224", Verif.Rfc8018.id_hmacWithSHA512_224, OBJECT_IDENTIFIER, .oid [1, 2, 840, 113549, 2, 12], true⟩,
   ⟨"rfc8018.id_hmacWithSHA512_256", Verif.Rfc8018.id_hmacWithSHA512_256, OBJECT_IDENTIFIER, .oid [1, 2, 840, 113549, 2, 13], true⟩,
   ⟨"rfc8018.pbeWithMD2AndDES_CBC", Verif.Rfc8018.pbeWithMD2AndDES_CBC, OBJECT_IDENTIFIER, .oid [1, 2, 840, 113549, 1, 5, 1], true⟩,
   ⟨"rfc8018.pbeWithMD2AndRC2_CBC", Verif.Rfc8018.pbeWithMD2AndRC2_CBC, OBJECT_IDENTIFIER, .oid [1, 2, 840, 113549, 1, 5, 4], true⟩,
   ⟨"rfc8018.pbeWithMD5AndDES_CBC", Verif.Rfc8018.pbeWithMD5AndDES_CBC, OBJECT_IDENTIFIER, .oid [1, 2, 840, 113549, 1, 5, 3], true⟩,
   ⟨"rfc8018.pbeWithMD5AndRC2_CBC", Verif.Rfc8018.pbeWithMD5AndRC2_CBC, OBJECT_IDENTIFIER, .oid [1, 2, 840, 113549, 1, 5, 6], true⟩,
   ⟨"rfc8018.pbeWithSHA1AndDES_CBC", Verif.Rfc8018.pbeWithSHA1AndDES_CBC, OBJECT_IDENTIFIER, .oid [1, 2, 840, 113549, 1, 5, 10], true⟩,
   ⟨"rfc8018.pbeWithSHA1AndRC2_CBC", Verif.Rfc8018.pbeWithSHA1AndRC2_CBC, OBJECT_IDENTIFIER, .oid [1, 2, 840, 113549, 1, 5, 11], true⟩,
   ⟨"rfc8018.desCBC", Verif.Rfc8018.desCBC, OBJECT_IDENTIFIER, .oid [1, 3, 14, 3, 2, 7], true⟩,
   ⟨"rfc8018.des_EDE3_CBC", Verif.Rfc8018.des_EDE3_CBC, OBJECT_IDENTIFIER, .oid [1, 2, 840, 113549, 3, 7], true⟩,
   ⟨"rfc8018.rc2CBC", Verif.Rfc8018.rc2CBC, OBJECT_IDENTIFIER, .oid [1, 2, 840, 113549, 3, 2], true⟩,
   ⟨"rfc8018.rc5_CBC_PAD", Verif.Rfc8018.rc5_CBC_PAD, OBJECT_IDENTIFIER, .oid [1, 2, 840, 113549, 3, 9], true⟩,
   ⟨"rfc8018.aes128_CBC_PAD", Verif.Rfc8018.aes128_CBC_PAD, OBJECT_IDENTIFIER, .oid [2, 16, 840, 1, 101, 3, 4, 1, 2], true⟩,
   ⟨"rfc8018.aes192_CBC_PAD", Verif.Rfc8018.aes192_CBC_PAD, OBJECT_IDENTIFIER, .oid [2, 16, 840, 1, 101, 3, 4, 1, 22], true⟩,
   ⟨"rfc8018.aes256_CBC_PAD", Verif.Rfc8018.aes256_CBC_PAD, OBJECT_IDENTIFIER, .oid [2, 16, 840, 1, 101, 3, 4, 1, 42], true⟩,
   ⟨"rfc8018.id_PBES2", Verif.Rfc8018.id_PBES2, OBJECT_IDENTIFIER, .oid [1, 2, 840, 113549, 1, 5, 13], true⟩,
   ⟨"rfc8018.id_PBMAC1", Verif.Rfc8018.id_PBMAC1, OBJECT_IDENTIFIER, .oid [1, 2, 840, 113549, 1, 5, 14], true⟩,
   ⟨"rfc8018.id_PBKDF2", Verif.Rfc8018.id_PBKDF2, OBJECT_IDENTIFIER, .oid [1, 2, 840, 113549, 1, 5, 12], true⟩,
   ⟨"rfc8018.algid_hmacWithSHA1", Verif.Rfc8018.algid_hmacWithSHA1.toObj, Std.Rfc5280.AlgorithmIdentifier, (.record (.ofList [(.oid [1, 2, 840, 113549, 2, 7]), (holding NULL .null)])), true⟩]

/-- Constants of rfc8018.py the transcription of the standard has no value for. -/
def others : List String :=
  []

def standard : Standard := ⟨Verif.Rfc8018.asModule, entries, beyond, constants, others⟩

end Rfc8018
end Std
end Verif
