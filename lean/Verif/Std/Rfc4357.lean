import Verif.Spec.Grade
import Verif.Gen.Rfc4357
import Verif.Std.Rfc5280

/-! The ASN.1 of tools/std/rfc4357.asn1 (generated by tools/stdgen.py). -/

namespace Verif
namespace Std
namespace Rfc4357

open Asn1 Spec.X680

/-- `Gost28147-89-UZ ::=` -/
def Gost28147_89_UZ : Ty :=
  constrained (SIZE 64 64) OCTET_STRING

/-- `Gost28147-89-IV ::=` -/
def Gost28147_89_IV : Ty :=
  constrained (SIZE 8 8) OCTET_STRING

/-- `Gost28147-89-Key ::=` -/
def Gost28147_89_Key : Ty :=
  constrained (SIZE 32 32) OCTET_STRING

/-- `Gost28147-89-MAC ::=` -/
def Gost28147_89_MAC : Ty :=
  constrained (SIZE 1 4) OCTET_STRING

/-- `Gost28147-89-EncryptedKey ::=` -/
def Gost28147_89_EncryptedKey : Ty :=
  SEQUENCE [
    mandatory "encryptedKey" Gost28147_89_Key,
    optional "maskKey" (implicit .context 0 Gost28147_89_Key),
    mandatory "macKey" (constrained (SIZE 4 4) Gost28147_89_MAC)]

/-- `Gost28147-89-ParamSet ::=` -/
def Gost28147_89_ParamSet : Ty :=
  constrained (VALUES [.oid [1, 2, 643, 2, 2, 31, 0], .oid [1, 2, 643, 2, 2, 31, 1], .oid [1, 2, 643, 2, 2, 31, 2], .oid [1, 2, 643, 2, 2, 31, 3], .oid [1, 2, 643, 2, 2, 31, 4], .oid [1, 2, 643, 2, 2, 31, 5], .oid [1, 2, 643, 2, 2, 31, 6], .oid [1, 2, 643, 2, 2, 31, 7]]) OBJECT_IDENTIFIER

/-- `Gost28147-89-BlobParameters ::=` -/
def Gost28147_89_BlobParameters : Ty :=
  SEQUENCE [
    mandatory "encryptionParamSet" Gost28147_89_ParamSet]

/-- `Gost28147-89-Parameters ::=` -/
def Gost28147_89_Parameters : Ty :=
  SEQUENCE [
    mandatory "iv" Gost28147_89_IV,
    mandatory "encryptionParamSet" Gost28147_89_ParamSet]

/-- `GostR3411-94-Digest ::=` -/
def GostR3411_94_Digest : Ty :=
  constrained (SIZE 32 32) OCTET_STRING

/-- `GostR3411-94-ParamSetParameters ::=` -/
def GostR3411_94_ParamSetParameters : Ty :=
  SEQUENCE [
    mandatory "hUZ" Gost28147_89_UZ,
    mandatory "h0" GostR3411_94_Digest]

/-- Classes of rfc4357.py and the types of the standard they implement. -/
def entries : List Entry :=
  [⟨"rfc4357.AlgorithmIdentifier", Verif.Rfc4357.AlgorithmIdentifier, Std.Rfc5280.AlgorithmIdentifier, .same, false⟩,
   ⟨"rfc4357.Gost28147_89_ParamSet", Verif.Rfc4357.Gost28147_89_ParamSet, Gost28147_89_ParamSet, .same, false⟩,
   ⟨"rfc4357.Gost28147_89_BlobParameters", Verif.Rfc4357.Gost28147_89_BlobParameters, Gost28147_89_BlobParameters, .same, false⟩,
   ⟨"rfc4357.Gost28147_89_MAC", Verif.Rfc4357.Gost28147_89_MAC, Gost28147_89_MAC, .same, false⟩,
   ⟨"rfc4357.Gost28147_89_Key", Verif.Rfc4357.Gost28147_89_Key, Gost28147_89_Key, .same, false⟩,
   ⟨"rfc4357.Gost28147_89_EncryptedKey", Verif.Rfc4357.Gost28147_89_EncryptedKey, Gost28147_89_EncryptedKey, .relaxed, false⟩,
   ⟨"rfc4357.Gost28147_89_IV", Verif.Rfc4357.Gost28147_89_IV, Gost28147_89_IV, .same, false⟩,
   ⟨"rfc4357.Gost28147_89_UZ", Verif.Rfc4357.Gost28147_89_UZ, Gost28147_89_UZ, .same, false⟩,
   ⟨"rfc4357.Gost28147_89_Parameters", Verif.Rfc4357.Gost28147_89_Parameters, Gost28147_89_Parameters, .same, false⟩,
   ⟨"rfc4357.GostR3411_94_Digest", Verif.Rfc4357.GostR3411_94_Digest, GostR3411_94_Digest, .same, false⟩,
   ⟨"rfc4357.GostR3411_94_ParamSetParameters", Verif.Rfc4357.GostR3411_94_ParamSetParameters, GostR3411_94_ParamSetParameters, .same, false⟩]

/-- Classes of rfc4357.py the transcription of the standard has no type for. -/
def beyond : List String :=
  ["rfc4357.Gost28147_89_ParamSetParameters",
   "rfc4357.GostR3410_2001_CertificateSignature",
   "rfc4357.GostR3410_2001_ParamSetParameters",
   "rfc4357.GostR3410_2001_PublicKey",
   "rfc4357.GostR3410_2001_PublicKeyParameters",
   "rfc4357.GostR3410_94_CertificateSignature",
   "rfc4357.GostR3410_94_ParamSetParameters_t",
   "rfc4357.GostR3410_94_ParamSetParameters",
   "rfc4357.GostR3410_94_PublicKey",
   "rfc4357.GostR3410_94_PublicKeyParameters",
   "rfc4357.GostR3410_94_ValidationBisParameters_c",
   "rfc4357.GostR3410_94_ValidationBisParameters",
   "rfc4357.GostR3410_94_ValidationParameters_c",
   "rfc4357.GostR3410_94_ValidationParameters",
   "rfc4357.GostR3411_94_DigestParameters"]

/-- Constants of rfc4357.py and the values the standard gives them. -/
def constants : List Constant :=
  [⟨"rfc4357.id_CryptoPro", Verif.Rfc4357.id_CryptoPro, OBJECT_IDENTIFIER, .oid [1, 2, 643, 2, 2], true⟩,
   ⟨"rfc4357.id_CryptoPro_modules", Verif.Rfc4357.id_CryptoPro_modules, OBJECT_IDENTIFIER, .oid [1, 2, 643, 2, 2, 1, 1], true⟩,
   ⟨"rfc4357.id_CryptoPro_extensions", Verif.Rfc4357.id_CryptoPro_extensions, OBJECT_IDENTIFIER, .oid [1, 2, 643, 2, 2, 34], true⟩,
   ⟨"rfc4357.id_CryptoPro_policyIds", Verif.Rfc4357.id_CryptoPro_policyIds, OBJECT_IDENTIFIER, .oid [1, 2, 643, 2, 2, 38], true⟩,
   ⟨"rfc4357.id_CryptoPro_policyQt", Verif.Rfc4357.id_CryptoPro_policyQt, OBJECT_IDENTIFIER, .oid [1, 2, 643, 2, 2, 39], true⟩,
   ⟨"rfc4357.cryptographic_Gost_Useful_Definitions", Verif.Rfc4357.cryptographic_Gost_Useful_Definitions, OBJECT_IDENTIFIER, .oid [1, 2, 643, 2, 2, 1, 1, 0, 1], true⟩,
   ⟨"rfc4357.gostR3411_94_DigestSyntax", Verif.Rfc4357.gostR3411_94_DigestSyntax, OBJECT_IDENTIFIER, .oid [1, 2, 643, 2, 2, 1, 1, 1, 1], true⟩,
   ⟨"rfc4357.gostR3410_94_PKISyntax", Verif.Rfc4357.gostR3410_94_PKISyntax, OBJECT_IDENTIFIER, .oid [1, 2, 643, 2, 2, 1, 1, 2, 1], true⟩,
   ⟨"rfc4357.gostR3410_94_SignatureSyntax", Verif.Rfc4357.gostR3410_94_SignatureSyntax, OBJECT_IDENTIFIER, .oid [1, 2, 643, 2, 2, 1, 1, 3, 1], true⟩,
   ⟨"rfc4357.gost28147_89_EncryptionSyntax", Verif.Rfc4357.gost28147_89_EncryptionSyntax, OBJECT_IDENTIFIER, .oid [1, 2, 643, 2, 2, 1, 1, 4, 1], true⟩,
   ⟨"rfc4357.gostR3410_EncryptionSyntax", Verif.Rfc4357.gostR3410_EncryptionSyntax, OBJECT_IDENTIFIER, .oid [1, 2, 643, 2, 2, 1, 1, 5, 2], true⟩,
   ⟨"rfc4357.gost28147_89_ParamSetSyntax", Verif.Rfc4357.gost28147_89_ParamSetSyntax, OBJECT_IDENTIFIER, .oid [1, 2, 643, 2, 2, 1, 1, 6, 1], true⟩,
   ⟨"rfc4357.gostR3411_94_ParamSetSyntax", Verif.Rfc4357.gostR3411_94_ParamSetSyntax, OBJECT_IDENTIFIER, .oid [1, 2, 643, 2, 2, 1, 1, 7, 1], true⟩,
   ⟨"rfc4357.gostR3410_2001_PKISyntax", Verif.Rfc4357.gostR3410_2001_PKISyntax, OBJECT_IDENTIFIER, .oid [1, 2, 643, 2, 2, 1, 1, 9, 1], true⟩,
   ⟨"rfc4357.gostR3410_2001_SignatureSyntax", Verif.Rfc4357.gostR3410_2001_SignatureSyntax, OBJECT_IDENTIFIER, .oid [1, 2, 643, 2, 2, 1, 1, 10, 1], true⟩,
   ⟨"rfc4357.gostR3410_2001_ParamSetSyntax", Verif.Rfc4357.gostR3410_2001_ParamSetSyntax, OBJECT_IDENTIFIER, .oid [1, 2, 643, 2, 2, 1, 1, 12, 1], true⟩,
   ⟨"rfc4357.gost_CryptoPro_ExtendedKeyUsage", Verif.Rfc4357.gost_CryptoPro_ExtendedKeyUsage, OBJECT_IDENTIFIER, .oid [1, 2, 643, 2, 2, 1, 1, 13, 1], true⟩,
   ⟨"rfc4357.gost_CryptoPro_PrivateKey", Verif.Rfc4357.gost_CryptoPro_PrivateKey, OBJECT_IDENTIFIER, .oid [1, 2, 643, 2, 2, 1, 1, 14, 1], true⟩,
   ⟨"rfc4357.gost_CryptoPro_PKIXCMP", Verif.Rfc4357.gost_CryptoPro_PKIXCMP, OBJECT_IDENTIFIER, .oid [1, 2, 643, 2, 2, 1, 1, 15, 1], true⟩,
   ⟨"rfc4357.gost_CryptoPro_TLS", Verif.Rfc4357.gost_CryptoPro_TLS, OBJECT_IDENTIFIER, .oid [1, 2, 643, 2, 2, 1, 1, 16, 1], true⟩,
   ⟨"rfc4357.gost_CryptoPro_Policy", Verif.Rfc4357.gost_CryptoPro_Policy, OBJECT_IDENTIFIER, .oid [1, 2, 643, 2, 2, 1, 1, 17, 1], true⟩,
   ⟨"rfc4357.gost_CryptoPro_Constants", Verif.Rfc4357.gost_CryptoPro_Constants, OBJECT_IDENTIFIER, .oid [1, 2, 643, 2, 2, 1, 1, 18, 1], true⟩,
   ⟨"rfc4357.id_CryptoPro_algorithms", Verif.Rfc4357.id_CryptoPro_algorithms, OBJECT_IDENTIFIER, .oid [1, 2, 643, 2, 2], true⟩,
   ⟨"rfc4357.id_GostR3411_94_with_GostR3410_2001", Verif.Rfc4357.id_GostR3411_94_with_GostR3410_2001, OBJECT_IDENTIFIER, .oid [1, 2, 643, 2, 2, 3], true⟩,
   ⟨"rfc4357.id_GostR3411_94_with_GostR3410_94", Verif.Rfc4357.id_GostR3411_94_with_GostR3410_94, OBJECT_IDENTIFIER, .oid [1, 2, 643, 2, 2, 4], true⟩,
   ⟨"rfc4357.id_GostR3411_94", Verif.Rfc4357.id_GostR3411_94, OBJECT_IDENTIFIER, .oid [1, 2, 643, 2, 2, 9], true⟩,
   ⟨"rfc4357.id_Gost28147_89_None_KeyMeshing", Verif.Rfc4357.id_Gost28147_89_None_KeyMeshing, OBJECT_IDENTIFIER, .oid [1, 2, 643, 2, 2, 14, 0], true⟩,
   ⟨"rfc4357.id_Gost28147_89_CryptoPro_KeyMeshing", Verif.Rfc4357.id_Gost28147_89_CryptoPro_KeyMeshing, OBJECT_IDENTIFIER, .oid [1, 2, 643, 2, 2, 14, 1], true⟩,
   ⟨"rfc4357.id_GostR3410_2001", Verif.Rfc4357.id_GostR3410_2001, OBJECT_IDENTIFIER, .oid [1, 2, 643, 2, 2, 19], true⟩,
   ⟨"rfc4357.id_GostR3410_94", Verif.Rfc4357.id_GostR3410_94, OBJECT_IDENTIFIER, .oid [1, 2, 643, 2, 2, 20], true⟩,
   ⟨"rfc4357.id_Gost28147_89", Verif.Rfc4357.id_Gost28147_89, OBJECT_IDENTIFIER, .oid [1, 2, 643, 2, 2, 21], true⟩,
   ⟨"rfc4357.id_Gost28147_89_MAC", Verif.Rfc4357.id_Gost28147_89_MAC, OBJECT_IDENTIFIER, .oid [1, 2, 643, 2, 2, 22], true⟩,
   ⟨"rfc4357.id_CryptoPro_hashes", Verif.Rfc4357.id_CryptoPro_hashes, OBJECT_IDENTIFIER, .oid [1, 2, 643, 2, 2, 30], true⟩,
   ⟨"rfc4357.id_CryptoPro_encrypts", Verif.Rfc4357.id_CryptoPro_encrypts, OBJECT_IDENTIFIER, .oid [1, 2, 643, 2, 2, 31], true⟩,
   ⟨"rfc4357.id_CryptoPro_signs", Verif.Rfc4357.id_CryptoPro_signs, OBJECT_IDENTIFIER, .oid [1, 2, 643, 2, 2, 32], true⟩,
   ⟨"rfc4357.id_CryptoPro_exchanges", Verif.Rfc4357.id_CryptoPro_exchanges, OBJECT_IDENTIFIER, .oid [1, 2, 643, 2, 2, 33], true⟩,
   ⟨"rfc4357.id_CryptoPro_ecc_signs", Verif.Rfc4357.id_CryptoPro_ecc_signs, OBJECT_IDENTIFIER, .oid [1, 2, 643, 2, 2, 35], true⟩,
   ⟨"rfc4357.id_CryptoPro_ecc_exchanges", Verif.Rfc4357.id_CryptoPro_ecc_exchanges, OBJECT_IDENTIFIER, .oid [1, 2, 643, 2, 2, 36], true⟩,
   ⟨"rfc4357.id_CryptoPro_private_keys", Verif.Rfc4357.id_CryptoPro_private_keys, OBJECT_IDENTIFIER, .oid [1, 2, 643, 2, 2, 37], true⟩,
   ⟨"rfc4357.id_CryptoPro_pkixcmp_infos", Verif.Rfc4357.id_CryptoPro_pkixcmp_infos, OBJECT_IDENTIFIER, .oid [1, 2, 643, 2, 2, 41], true⟩,
   ⟨"rfc4357.id_CryptoPro_audit_service_types", Verif.Rfc4357.id_CryptoPro_audit_service_types, OBJECT_IDENTIFIER, .oid [1, 2, 643, 2, 2, 42], true⟩,
   ⟨"rfc4357.id_CryptoPro_audit_record_types", Verif.Rfc4357.id_CryptoPro_audit_record_types, OBJECT_IDENTIFIER, .oid [1, 2, 643, 2, 2, 43], true⟩,
   ⟨"rfc4357.id_CryptoPro_attributes", Verif.Rfc4357.id_CryptoPro_attributes, OBJECT_IDENTIFIER, .oid [1, 2, 643, 2, 2, 44], true⟩,
   ⟨"rfc4357.id_CryptoPro_name_service_types", Verif.Rfc4357.id_CryptoPro_name_service_types, OBJECT_IDENTIFIER, .oid [1, 2, 643, 2, 2, 45], true⟩,
   ⟨"rfc4357.id_GostR3410_2001DH", Verif.Rfc4357.id_GostR3410_2001DH, OBJECT_IDENTIFIER, .oid [1, 2, 643, 2, 2, 98], true⟩,
   ⟨"rfc4357.id_GostR3410_94DH", Verif.Rfc4357.id_GostR3410_94DH, OBJECT_IDENTIFIER, .oid [1, 2, 643, 2, 2, 99], true⟩,
   ⟨"rfc4357.id_Gost28147_89_TestParamSet", Verif.Rfc4357.id_Gost28147_89_TestParamSet, OBJECT_IDENTIFIER, .oid [1, 2, 643, 2, 2, 31, 0], true⟩,
   ⟨"rfc4357.id_Gost28147_89_CryptoPro_A_ParamSet", Verif.Rfc4357.id_Gost28147_89_CryptoPro_A_ParamSet, OBJECT_IDENTIFIER, .oid [1, 2, 643, 2, 2, 31, 1], true⟩,
   ⟨"rfc4357.id_Gost28147_89_CryptoPro_B_ParamSet", Verif.Rfc4357.id_Gost28147_89_CryptoPro_B_ParamSet, OBJECT_IDENTIFIER, .oid [1, 2, 643, 2, 2, 31, 2], true⟩,
   ⟨"rfc4357.id_Gost28147_89_CryptoPro_C_ParamSet", Verif.Rfc4357.id_Gost28147_89_CryptoPro_C_ParamSet, OBJECT_IDENTIFIER, .oid [1, 2, 643, 2, 2, 31, 3], true⟩,
   ⟨"rfc4357.id_Gost28147_89_CryptoPro_D_ParamSet", Verif.Rfc4357.id_Gost28147_89_CryptoPro_D_ParamSet, OBJECT_IDENTIFIER, .oid [1, 2, 643, 2, 2, 31, 4], true⟩,
   ⟨"rfc4357.id_Gost28147_89_CryptoPro_Oscar_1_1_ParamSet", Verif.Rfc4357.id_Gost28147_89_CryptoPro_Oscar_1_1_ParamSet, OBJECT_IDENTIFIER, .oid [1, 2, 643, 2, 2, 31, 5], true⟩,
   ⟨"rfc4357.id_Gost28147_89_CryptoPro_Oscar_1_0_ParamSet", Verif.Rfc4357.id_Gost28147_89_CryptoPro_Oscar_1_0_ParamSet, OBJECT_IDENTIFIER, .oid [1, 2, 643, 2, 2, 31, 6], true⟩,
   ⟨"rfc4357.id_Gost28147_89_CryptoPro_RIC_1_ParamSet", Verif.Rfc4357.id_Gost28147_89_CryptoPro_RIC_1_ParamSet, OBJECT_IDENTIFIER, .oid [1, 2, 643, 2, 2, 31, 7], true⟩,
   ⟨"rfc4357.id_GostR3410_2001_TestParamSet", Verif.Rfc4357.id_GostR3410_2001_TestParamSet, OBJECT_IDENTIFIER, .oid [1, 2, 643, 2, 2, 35, 0], true⟩,
   ⟨"rfc4357.id_GostR3410_2001_CryptoPro_A_ParamSet", Verif.Rfc4357.id_GostR3410_2001_CryptoPro_A_ParamSet, OBJECT_IDENTIFIER, .oid [1, 2, 643, 2, 2, 35, 1], true⟩,
   ⟨"rfc4357.id_GostR3410_2001_CryptoPro_B_ParamSet", Verif.Rfc4357.id_GostR3410_2001_CryptoPro_B_ParamSet, OBJECT_IDENTIFIER, .oid [1, 2, 643, 2, 2, 35, 2], true⟩,
   ⟨"rfc4357.id_GostR3410_2001_CryptoPro_C_ParamSet", Verif.Rfc4357.id_GostR3410_2001_CryptoPro_C_ParamSet, OBJECT_IDENTIFIER, .oid [1, 2, 643, 2, 2, 35, 3], true⟩,
   ⟨"rfc4357.id_GostR3410_2001_CryptoPro_XchA_ParamSet", Verif.Rfc4357.id_GostR3410_2001_CryptoPro_XchA_ParamSet, OBJECT_IDENTIFIER, .oid [1, 2, 643, 2, 2, 36, 0], true⟩,
   ⟨"rfc4357.id_GostR3410_2001_CryptoPro_XchB_ParamSet", Verif.Rfc4357.id_GostR3410_2001_CryptoPro_XchB_ParamSet, OBJECT_IDENTIFIER, .oid [1, 2, 643, 2, 2, 36, 1], true⟩,
   ⟨"rfc4357.id_GostR3410_94_TestParamSet", Verif.Rfc4357.id_GostR3410_94_TestParamSet, OBJECT_IDENTIFIER, .oid [1, 2, 643, 2, 2, 32, 0], true⟩,
   ⟨"rfc4357.id_GostR3410_94_CryptoPro_A_ParamSet", Verif.Rfc4357.id_GostR3410_94_CryptoPro_A_ParamSet, OBJECT_IDENTIFIER, .oid [1, 2, 643, 2, 2, 32, 2], true⟩,
   ⟨"rfc4357.id_GostR3410_94_CryptoPro_B_ParamSet", Verif.Rfc4357.id_GostR3410_94_CryptoPro_B_ParamSet, OBJECT_IDENTIFIER, .oid [1, 2, 643, 2, 2, 32, 3], true⟩,
   ⟨"rfc4357.id_GostR3410_94_CryptoPro_C_ParamSet", Verif.Rfc4357.id_GostR3410_94_CryptoPro_C_ParamSet, OBJECT_IDENTIFIER, .oid [1, 2, 643, 2, 2, 32, 4], true⟩,
   ⟨"rfc4357.id_GostR3410_94_CryptoPro_D_ParamSet", Verif.Rfc4357.id_GostR3410_94_CryptoPro_D_ParamSet, OBJECT_IDENTIFIER, .oid [1, 2, 643, 2, 2, 32, 5], true⟩,
   ⟨"rfc4357.id_GostR3410_94_CryptoPro_XchA_ParamSet", Verif.Rfc4357.id_GostR3410_94_CryptoPro_XchA_ParamSet, OBJECT_IDENTIFIER, .oid [1, 2, 643, 2, 2, 33, 1], true⟩,
   ⟨"rfc4357.id_GostR3410_94_CryptoPro_XchB_ParamSet", Verif.Rfc4357.id_GostR3410_94_CryptoPro_XchB_ParamSet, OBJECT_IDENTIFIER, .oid [1, 2, 643, 2, 2, 33, 2], true⟩,
   ⟨"rfc4357.id_GostR3410_94_CryptoPro_XchC_ParamSet", Verif.Rfc4357.id_GostR3410_94_CryptoPro_XchC_ParamSet, OBJECT_IDENTIFIER, .oid [1, 2, 643, 2, 2, 33, 3], true⟩,
   ⟨"rfc4357.id_GostR3410_94_a", Verif.Rfc4357.id_GostR3410_94_a, OBJECT_IDENTIFIER, .oid [1, 2, 643, 2, 2, 20, 1], true⟩,
   ⟨"rfc4357.id_GostR3410_94_aBis", Verif.Rfc4357.id_GostR3410_94_aBis, OBJECT_IDENTIFIER, .oid [1, 2, 643, 2, 2, 20, 2], true⟩,
   ⟨"rfc4357.id_GostR3410_94_b", Verif.Rfc4357.id_GostR3410_94_b, OBJECT_IDENTIFIER, .oid [1, 2, 643, 2, 2, 20, 3], true⟩,
   ⟨"rfc4357.id_GostR3410_94_bBis", Verif.Rfc4357.id_GostR3410_94_bBis, OBJECT_IDENTIFIER, .oid [1, 2, 643, 2, 2, 20, 4], true⟩,
   ⟨"rfc4357.id_GostR3411_94_TestParamSet", Verif.Rfc4357.id_GostR3411_94_TestParamSet, OBJECT_IDENTIFIER, .oid [1, 2, 643, 2, 2, 30, 0], true⟩,
   ⟨"rfc4357.id_GostR3411_94_CryptoProParamSet", Verif.Rfc4357.id_GostR3411_94_CryptoProParamSet, OBJECT_IDENTIFIER, .oid [1, 2, 643, 2, 2, 30, 1], true⟩]

/-- Constants of rfc4357.py the transcription of the standard has no value for. -/
def others : List String :=
  ["rfc4357.gostR3410_94_ParamSetSyntax"]

def standard : Standard := ⟨Verif.Rfc4357.asModule, entries, beyond, constants, others⟩

end Rfc4357
end Std
end Verif
