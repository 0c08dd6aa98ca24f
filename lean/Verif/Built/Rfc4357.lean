import Verif.Spec.Built
import Verif.Std.Rfc4357
import Verif.Built.Rfc5280
import Verif.Std.Rfc5280

/-! What rfc4357.py implements, where that is not the standard (generated by tools/builtgen.py). -/

namespace Verif
namespace Built
namespace Rfc4357

open Asn1 Verif.Std Spec.X680 Spec.Built

/-- `Gost28147-89-EncryptedKey ::=`, changed or supplied -/
def Gost28147_89_EncryptedKey : Ty :=
  SEQUENCE [
    mandatory "encryptedKey" Std.Rfc4357.Gost28147_89_Key,
    optional "maskKey" (implicit .context 0 Std.Rfc4357.Gost28147_89_Key),
    mandatory "macKey" Std.Rfc4357.Gost28147_89_MAC]

/-- `Gost28147-89-ParamSetParameters ::=`, changed or supplied -/
def Gost28147_89_ParamSetParameters : Ty :=
  SEQUENCE [
    mandatory "eUZ" Std.Rfc4357.Gost28147_89_UZ,
    mandatory "mode" (named [("gost28147-89-CNT", 0), ("gost28147-89-CFB", 1), ("cryptoPro-CBC", 2)] INTEGER),
    mandatory "shiftBits" (named [("gost28147-89-block", 64)] INTEGER),
    mandatory "keyMeshing" Std.Rfc5280.AlgorithmIdentifier]

/-- `GostR3410-2001-CertificateSignature ::=`, changed or supplied -/
def GostR3410_2001_CertificateSignature : Ty :=
  constrained (SIZE 256 512) BIT_STRING

/-- `GostR3410-2001-ParamSetParameters ::=`, changed or supplied -/
def GostR3410_2001_ParamSetParameters : Ty :=
  SEQUENCE [
    mandatory "a" INTEGER,
    mandatory "b" INTEGER,
    mandatory "p" INTEGER,
    mandatory "q" INTEGER,
    mandatory "x" INTEGER,
    mandatory "y" INTEGER]

/-- `GostR3410-2001-PublicKey ::=`, changed or supplied -/
def GostR3410_2001_PublicKey : Ty :=
  constrained (SIZE 64 64) OCTET_STRING

/-- `GostR3410-2001-PublicKeyParameters ::=`, changed or supplied -/
def GostR3410_2001_PublicKeyParameters : Ty :=
  SEQUENCE [
    mandatory "publicKeyParamSet" (constrained (VALUES [.oid [1, 2, 643, 2, 2, 35, 0], .oid [1, 2, 643, 2, 2, 35, 1], .oid [1, 2, 643, 2, 2, 35, 2], .oid [1, 2, 643, 2, 2, 35, 3], .oid [1, 2, 643, 2, 2, 36, 0], .oid [1, 2, 643, 2, 2, 36, 1]]) OBJECT_IDENTIFIER),
    mandatory "digestParamSet" (constrained (VALUES [.oid [1, 2, 643, 2, 2, 30, 0], .oid [1, 2, 643, 2, 2, 30, 1]]) OBJECT_IDENTIFIER),
    default "encryptionParamSet" Std.Rfc4357.Gost28147_89_ParamSet (.oid [1, 2, 643, 2, 2, 31, 1])]

/-- `GostR3410-94-CertificateSignature ::=`, changed or supplied -/
def GostR3410_94_CertificateSignature : Ty :=
  constrained (SIZE 256 512) BIT_STRING

/-- `GostR3410-94-ParamSetParameters-t ::=`, changed or supplied -/
def GostR3410_94_ParamSetParameters_t : Ty :=
  constrained (VALUES [.int 512, .int 1024]) INTEGER

/-- `GostR3410-94-ParamSetParameters ::=`, changed or supplied -/
def GostR3410_94_ParamSetParameters : Ty :=
  SEQUENCE [
    mandatory "t" Built.Rfc4357.GostR3410_94_ParamSetParameters_t,
    mandatory "p" INTEGER,
    mandatory "q" INTEGER,
    mandatory "a" INTEGER,
    optional "validationAlgorithm" Std.Rfc5280.AlgorithmIdentifier]

/-- `GostR3410-94-PublicKey ::=`, changed or supplied -/
def GostR3410_94_PublicKey : Ty :=
  constrained (EITHER (SIZE 64 64) (SIZE 128 128)) OCTET_STRING

/-- `GostR3410-94-PublicKeyParameters ::=`, changed or supplied -/
def GostR3410_94_PublicKeyParameters : Ty :=
  SEQUENCE [
    mandatory "publicKeyParamSet" (constrained (VALUES [.oid [1, 2, 643, 2, 2, 32, 0], .oid [1, 2, 643, 2, 2, 32, 2], .oid [1, 2, 643, 2, 2, 32, 3], .oid [1, 2, 643, 2, 2, 32, 4], .oid [1, 2, 643, 2, 2, 32, 5], .oid [1, 2, 643, 2, 2, 33, 1], .oid [1, 2, 643, 2, 2, 33, 2], .oid [1, 2, 643, 2, 2, 33, 3]]) OBJECT_IDENTIFIER),
    mandatory "digestParamSet" (constrained (VALUES [.oid [1, 2, 643, 2, 2, 30, 0], .oid [1, 2, 643, 2, 2, 30, 1]]) OBJECT_IDENTIFIER),
    default "encryptionParamSet" Std.Rfc4357.Gost28147_89_ParamSet (.oid [1, 2, 643, 2, 2, 31, 1])]

/-- `GostR3410-94-ValidationBisParameters-c ::=`, changed or supplied -/
def GostR3410_94_ValidationBisParameters_c : Ty :=
  constrained (RANGE 0 4294967295) INTEGER

/-- `GostR3410-94-ValidationBisParameters ::=`, changed or supplied -/
def GostR3410_94_ValidationBisParameters : Ty :=
  SEQUENCE [
    mandatory "x0" Built.Rfc4357.GostR3410_94_ValidationBisParameters_c,
    mandatory "c" Built.Rfc4357.GostR3410_94_ValidationBisParameters_c,
    optional "d" INTEGER]

/-- `GostR3410-94-ValidationParameters-c ::=`, changed or supplied -/
def GostR3410_94_ValidationParameters_c : Ty :=
  constrained (RANGE 0 65535) INTEGER

/-- `GostR3410-94-ValidationParameters ::=`, changed or supplied -/
def GostR3410_94_ValidationParameters : Ty :=
  SEQUENCE [
    mandatory "x0" Built.Rfc4357.GostR3410_94_ValidationParameters_c,
    mandatory "c" Built.Rfc4357.GostR3410_94_ValidationParameters_c,
    optional "d" INTEGER]

/-- `GostR3411-94-DigestParameters ::=`, changed or supplied -/
def GostR3411_94_DigestParameters : Ty :=
  constrained (EITHER (VALUES [.oid [1, 2, 643, 2, 2, 30, 0]]) (VALUES [.oid [1, 2, 643, 2, 2, 30, 1]])) OBJECT_IDENTIFIER

def description : Description :=
  ⟨Verif.Rfc4357.asModule,
   [⟨"rfc4357.AlgorithmIdentifier", Verif.Rfc4357.AlgorithmIdentifier, Std.Rfc5280.AlgorithmIdentifier⟩,
    ⟨"rfc4357.Gost28147_89_ParamSet", Verif.Rfc4357.Gost28147_89_ParamSet, Std.Rfc4357.Gost28147_89_ParamSet⟩,
    ⟨"rfc4357.Gost28147_89_BlobParameters", Verif.Rfc4357.Gost28147_89_BlobParameters, Std.Rfc4357.Gost28147_89_BlobParameters⟩,
    ⟨"rfc4357.Gost28147_89_MAC", Verif.Rfc4357.Gost28147_89_MAC, Std.Rfc4357.Gost28147_89_MAC⟩,
    ⟨"rfc4357.Gost28147_89_Key", Verif.Rfc4357.Gost28147_89_Key, Std.Rfc4357.Gost28147_89_Key⟩,
    ⟨"rfc4357.Gost28147_89_EncryptedKey", Verif.Rfc4357.Gost28147_89_EncryptedKey, Built.Rfc4357.Gost28147_89_EncryptedKey⟩,
    ⟨"rfc4357.Gost28147_89_IV", Verif.Rfc4357.Gost28147_89_IV, Std.Rfc4357.Gost28147_89_IV⟩,
    ⟨"rfc4357.Gost28147_89_UZ", Verif.Rfc4357.Gost28147_89_UZ, Std.Rfc4357.Gost28147_89_UZ⟩,
    ⟨"rfc4357.Gost28147_89_ParamSetParameters", Verif.Rfc4357.Gost28147_89_ParamSetParameters, Built.Rfc4357.Gost28147_89_ParamSetParameters⟩,
    ⟨"rfc4357.Gost28147_89_Parameters", Verif.Rfc4357.Gost28147_89_Parameters, Std.Rfc4357.Gost28147_89_Parameters⟩,
    ⟨"rfc4357.GostR3410_2001_CertificateSignature", Verif.Rfc4357.GostR3410_2001_CertificateSignature, Built.Rfc4357.GostR3410_2001_CertificateSignature⟩,
    ⟨"rfc4357.GostR3410_2001_ParamSetParameters", Verif.Rfc4357.GostR3410_2001_ParamSetParameters, Built.Rfc4357.GostR3410_2001_ParamSetParameters⟩,
    ⟨"rfc4357.GostR3410_2001_PublicKey", Verif.Rfc4357.GostR3410_2001_PublicKey, Built.Rfc4357.GostR3410_2001_PublicKey⟩,
    ⟨"rfc4357.GostR3410_2001_PublicKeyParameters", Verif.Rfc4357.GostR3410_2001_PublicKeyParameters, Built.Rfc4357.GostR3410_2001_PublicKeyParameters⟩,
    ⟨"rfc4357.GostR3410_94_CertificateSignature", Verif.Rfc4357.GostR3410_94_CertificateSignature, Built.Rfc4357.GostR3410_94_CertificateSignature⟩,
    ⟨"rfc4357.GostR3410_94_ParamSetParameters_t", Verif.Rfc4357.GostR3410_94_ParamSetParameters_t, Built.Rfc4357.GostR3410_94_ParamSetParameters_t⟩,
    ⟨"rfc4357.GostR3410_94_ParamSetParameters", Verif.Rfc4357.GostR3410_94_ParamSetParameters, Built.Rfc4357.GostR3410_94_ParamSetParameters⟩,
    ⟨"rfc4357.GostR3410_94_PublicKey", Verif.Rfc4357.GostR3410_94_PublicKey, Built.Rfc4357.GostR3410_94_PublicKey⟩,
    ⟨"rfc4357.GostR3410_94_PublicKeyParameters", Verif.Rfc4357.GostR3410_94_PublicKeyParameters, Built.Rfc4357.GostR3410_94_PublicKeyParameters⟩,
    ⟨"rfc4357.GostR3410_94_ValidationBisParameters_c", Verif.Rfc4357.GostR3410_94_ValidationBisParameters_c, Built.Rfc4357.GostR3410_94_ValidationBisParameters_c⟩,
    ⟨"rfc4357.GostR3410_94_ValidationBisParameters", Verif.Rfc4357.GostR3410_94_ValidationBisParameters, Built.Rfc4357.GostR3410_94_ValidationBisParameters⟩,
    ⟨"rfc4357.GostR3410_94_ValidationParameters_c", Verif.Rfc4357.GostR3410_94_ValidationParameters_c, Built.Rfc4357.GostR3410_94_ValidationParameters_c⟩,
    ⟨"rfc4357.GostR3410_94_ValidationParameters", Verif.Rfc4357.GostR3410_94_ValidationParameters, Built.Rfc4357.GostR3410_94_ValidationParameters⟩,
    ⟨"rfc4357.GostR3411_94_Digest", Verif.Rfc4357.GostR3411_94_Digest, Std.Rfc4357.GostR3411_94_Digest⟩,
    ⟨"rfc4357.GostR3411_94_DigestParameters", Verif.Rfc4357.GostR3411_94_DigestParameters, Built.Rfc4357.GostR3411_94_DigestParameters⟩,
    ⟨"rfc4357.GostR3411_94_ParamSetParameters", Verif.Rfc4357.GostR3411_94_ParamSetParameters, Std.Rfc4357.GostR3411_94_ParamSetParameters⟩]⟩

end Rfc4357
end Built
end Verif
