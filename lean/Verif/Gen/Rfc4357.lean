import Verif.Py.Obj
import Verif.Gen.Rfc5280

/-! Transcription of /repo/pyasn1_modules/rfc4357.py (generated by tools/gen.py). -/

namespace Verif
namespace Rfc4357

/-- rfc4357.py:29 alias of `rfc5280.AlgorithmIdentifier` -/
def AlgorithmIdentifier : Py.Obj :=
  Rfc5280.AlgorithmIdentifier

/-- rfc4357.py:34 -/
def id_CryptoPro : Py.Obj :=
  (Py.univ.ObjectIdentifier.call.callArcs [1, 2, 643, 2, 2])

/-- rfc4357.py:37 -/
def id_CryptoPro_modules : Py.Obj :=
  (Rfc4357.id_CryptoPro.addArcs [1, 1])

/-- rfc4357.py:39 -/
def id_CryptoPro_extensions : Py.Obj :=
  (Rfc4357.id_CryptoPro.addArcs [34])

/-- rfc4357.py:41 -/
def id_CryptoPro_policyIds : Py.Obj :=
  (Rfc4357.id_CryptoPro.addArcs [38])

/-- rfc4357.py:43 -/
def id_CryptoPro_policyQt : Py.Obj :=
  (Rfc4357.id_CryptoPro.addArcs [39])

/-- rfc4357.py:46 -/
def cryptographic_Gost_Useful_Definitions : Py.Obj :=
  (Rfc4357.id_CryptoPro_modules.addArcs [0, 1])

/-- rfc4357.py:48 -/
def gostR3411_94_DigestSyntax : Py.Obj :=
  (Rfc4357.id_CryptoPro_modules.addArcs [1, 1])

/-- rfc4357.py:50 -/
def gostR3410_94_PKISyntax : Py.Obj :=
  (Rfc4357.id_CryptoPro_modules.addArcs [2, 1])

/-- rfc4357.py:52 -/
def gostR3410_94_SignatureSyntax : Py.Obj :=
  (Rfc4357.id_CryptoPro_modules.addArcs [3, 1])

/-- rfc4357.py:54 -/
def gost28147_89_EncryptionSyntax : Py.Obj :=
  (Rfc4357.id_CryptoPro_modules.addArcs [4, 1])

/-- rfc4357.py:56 -/
def gostR3410_EncryptionSyntax : Py.Obj :=
  (Rfc4357.id_CryptoPro_modules.addArcs [5, 2])

/-- rfc4357.py:58 -/
def gost28147_89_ParamSetSyntax : Py.Obj :=
  (Rfc4357.id_CryptoPro_modules.addArcs [6, 1])

/-- rfc4357.py:60 -/
def gostR3411_94_ParamSetSyntax : Py.Obj :=
  (Rfc4357.id_CryptoPro_modules.addArcs [7, 1])

/-- rfc4357.py:62 -/
def gostR3410_94_ParamSetSyntax : Py.Obj :=
  (Rfc4357.id_CryptoPro_modules.addArcs [8, 1, 1])

/-- rfc4357.py:64 -/
def gostR3410_2001_PKISyntax : Py.Obj :=
  (Rfc4357.id_CryptoPro_modules.addArcs [9, 1])

/-- rfc4357.py:66 -/
def gostR3410_2001_SignatureSyntax : Py.Obj :=
  (Rfc4357.id_CryptoPro_modules.addArcs [10, 1])

/-- rfc4357.py:68 -/
def gostR3410_2001_ParamSetSyntax : Py.Obj :=
  (Rfc4357.id_CryptoPro_modules.addArcs [12, 1])

/-- rfc4357.py:70 -/
def gost_CryptoPro_ExtendedKeyUsage : Py.Obj :=
  (Rfc4357.id_CryptoPro_modules.addArcs [13, 1])

/-- rfc4357.py:72 -/
def gost_CryptoPro_PrivateKey : Py.Obj :=
  (Rfc4357.id_CryptoPro_modules.addArcs [14, 1])

/-- rfc4357.py:74 -/
def gost_CryptoPro_PKIXCMP : Py.Obj :=
  (Rfc4357.id_CryptoPro_modules.addArcs [15, 1])

/-- rfc4357.py:76 -/
def gost_CryptoPro_TLS : Py.Obj :=
  (Rfc4357.id_CryptoPro_modules.addArcs [16, 1])

/-- rfc4357.py:78 -/
def gost_CryptoPro_Policy : Py.Obj :=
  (Rfc4357.id_CryptoPro_modules.addArcs [17, 1])

/-- rfc4357.py:80 -/
def gost_CryptoPro_Constants : Py.Obj :=
  (Rfc4357.id_CryptoPro_modules.addArcs [18, 1])

/-- rfc4357.py:83 alias of `id_CryptoPro` -/
def id_CryptoPro_algorithms : Py.Obj :=
  Rfc4357.id_CryptoPro

/-- rfc4357.py:85 -/
def id_GostR3411_94_with_GostR3410_2001 : Py.Obj :=
  (Rfc4357.id_CryptoPro_algorithms.addArcs [3])

/-- rfc4357.py:87 -/
def id_GostR3411_94_with_GostR3410_94 : Py.Obj :=
  (Rfc4357.id_CryptoPro_algorithms.addArcs [4])

/-- rfc4357.py:89 -/
def id_GostR3411_94 : Py.Obj :=
  (Rfc4357.id_CryptoPro_algorithms.addArcs [9])

/-- rfc4357.py:91 -/
def id_Gost28147_89_None_KeyMeshing : Py.Obj :=
  (Rfc4357.id_CryptoPro_algorithms.addArcs [14, 0])

/-- rfc4357.py:93 -/
def id_Gost28147_89_CryptoPro_KeyMeshing : Py.Obj :=
  (Rfc4357.id_CryptoPro_algorithms.addArcs [14, 1])

/-- rfc4357.py:95 -/
def id_GostR3410_2001 : Py.Obj :=
  (Rfc4357.id_CryptoPro_algorithms.addArcs [19])

/-- rfc4357.py:97 -/
def id_GostR3410_94 : Py.Obj :=
  (Rfc4357.id_CryptoPro_algorithms.addArcs [20])

/-- rfc4357.py:99 -/
def id_Gost28147_89 : Py.Obj :=
  (Rfc4357.id_CryptoPro_algorithms.addArcs [21])

/-- rfc4357.py:101 -/
def id_Gost28147_89_MAC : Py.Obj :=
  (Rfc4357.id_CryptoPro_algorithms.addArcs [22])

/-- rfc4357.py:103 -/
def id_CryptoPro_hashes : Py.Obj :=
  (Rfc4357.id_CryptoPro_algorithms.addArcs [30])

/-- rfc4357.py:105 -/
def id_CryptoPro_encrypts : Py.Obj :=
  (Rfc4357.id_CryptoPro_algorithms.addArcs [31])

/-- rfc4357.py:107 -/
def id_CryptoPro_signs : Py.Obj :=
  (Rfc4357.id_CryptoPro_algorithms.addArcs [32])

/-- rfc4357.py:109 -/
def id_CryptoPro_exchanges : Py.Obj :=
  (Rfc4357.id_CryptoPro_algorithms.addArcs [33])

/-- rfc4357.py:111 -/
def id_CryptoPro_ecc_signs : Py.Obj :=
  (Rfc4357.id_CryptoPro_algorithms.addArcs [35])

/-- rfc4357.py:113 -/
def id_CryptoPro_ecc_exchanges : Py.Obj :=
  (Rfc4357.id_CryptoPro_algorithms.addArcs [36])

/-- rfc4357.py:115 -/
def id_CryptoPro_private_keys : Py.Obj :=
  (Rfc4357.id_CryptoPro_algorithms.addArcs [37])

/-- rfc4357.py:117 -/
def id_CryptoPro_pkixcmp_infos : Py.Obj :=
  (Rfc4357.id_CryptoPro_algorithms.addArcs [41])

/-- rfc4357.py:119 -/
def id_CryptoPro_audit_service_types : Py.Obj :=
  (Rfc4357.id_CryptoPro_algorithms.addArcs [42])

/-- rfc4357.py:121 -/
def id_CryptoPro_audit_record_types : Py.Obj :=
  (Rfc4357.id_CryptoPro_algorithms.addArcs [43])

/-- rfc4357.py:123 -/
def id_CryptoPro_attributes : Py.Obj :=
  (Rfc4357.id_CryptoPro_algorithms.addArcs [44])

/-- rfc4357.py:125 -/
def id_CryptoPro_name_service_types : Py.Obj :=
  (Rfc4357.id_CryptoPro_algorithms.addArcs [45])

/-- rfc4357.py:127 -/
def id_GostR3410_2001DH : Py.Obj :=
  (Rfc4357.id_CryptoPro_algorithms.addArcs [98])

/-- rfc4357.py:129 -/
def id_GostR3410_94DH : Py.Obj :=
  (Rfc4357.id_CryptoPro_algorithms.addArcs [99])

/-- rfc4357.py:132 -/
def id_Gost28147_89_TestParamSet : Py.Obj :=
  (Rfc4357.id_CryptoPro_encrypts.addArcs [0])

/-- rfc4357.py:134 -/
def id_Gost28147_89_CryptoPro_A_ParamSet : Py.Obj :=
  (Rfc4357.id_CryptoPro_encrypts.addArcs [1])

/-- rfc4357.py:136 -/
def id_Gost28147_89_CryptoPro_B_ParamSet : Py.Obj :=
  (Rfc4357.id_CryptoPro_encrypts.addArcs [2])

/-- rfc4357.py:138 -/
def id_Gost28147_89_CryptoPro_C_ParamSet : Py.Obj :=
  (Rfc4357.id_CryptoPro_encrypts.addArcs [3])

/-- rfc4357.py:140 -/
def id_Gost28147_89_CryptoPro_D_ParamSet : Py.Obj :=
  (Rfc4357.id_CryptoPro_encrypts.addArcs [4])

/-- rfc4357.py:142 -/
def id_Gost28147_89_CryptoPro_Oscar_1_1_ParamSet : Py.Obj :=
  (Rfc4357.id_CryptoPro_encrypts.addArcs [5])

/-- rfc4357.py:144 -/
def id_Gost28147_89_CryptoPro_Oscar_1_0_ParamSet : Py.Obj :=
  (Rfc4357.id_CryptoPro_encrypts.addArcs [6])

/-- rfc4357.py:146 -/
def id_Gost28147_89_CryptoPro_RIC_1_ParamSet : Py.Obj :=
  (Rfc4357.id_CryptoPro_encrypts.addArcs [7])

/-- rfc4357.py:149 -/
def id_GostR3410_2001_TestParamSet : Py.Obj :=
  (Rfc4357.id_CryptoPro_ecc_signs.addArcs [0])

/-- rfc4357.py:151 -/
def id_GostR3410_2001_CryptoPro_A_ParamSet : Py.Obj :=
  (Rfc4357.id_CryptoPro_ecc_signs.addArcs [1])

/-- rfc4357.py:153 -/
def id_GostR3410_2001_CryptoPro_B_ParamSet : Py.Obj :=
  (Rfc4357.id_CryptoPro_ecc_signs.addArcs [2])

/-- rfc4357.py:155 -/
def id_GostR3410_2001_CryptoPro_C_ParamSet : Py.Obj :=
  (Rfc4357.id_CryptoPro_ecc_signs.addArcs [3])

/-- rfc4357.py:158 -/
def id_GostR3410_2001_CryptoPro_XchA_ParamSet : Py.Obj :=
  (Rfc4357.id_CryptoPro_ecc_exchanges.addArcs [0])

/-- rfc4357.py:160 -/
def id_GostR3410_2001_CryptoPro_XchB_ParamSet : Py.Obj :=
  (Rfc4357.id_CryptoPro_ecc_exchanges.addArcs [1])

/-- rfc4357.py:163 -/
def id_GostR3410_94_TestParamSet : Py.Obj :=
  (Rfc4357.id_CryptoPro_signs.addArcs [0])

/-- rfc4357.py:165 -/
def id_GostR3410_94_CryptoPro_A_ParamSet : Py.Obj :=
  (Rfc4357.id_CryptoPro_signs.addArcs [2])

/-- rfc4357.py:167 -/
def id_GostR3410_94_CryptoPro_B_ParamSet : Py.Obj :=
  (Rfc4357.id_CryptoPro_signs.addArcs [3])

/-- rfc4357.py:169 -/
def id_GostR3410_94_CryptoPro_C_ParamSet : Py.Obj :=
  (Rfc4357.id_CryptoPro_signs.addArcs [4])

/-- rfc4357.py:171 -/
def id_GostR3410_94_CryptoPro_D_ParamSet : Py.Obj :=
  (Rfc4357.id_CryptoPro_signs.addArcs [5])

/-- rfc4357.py:174 -/
def id_GostR3410_94_CryptoPro_XchA_ParamSet : Py.Obj :=
  (Rfc4357.id_CryptoPro_exchanges.addArcs [1])

/-- rfc4357.py:176 -/
def id_GostR3410_94_CryptoPro_XchB_ParamSet : Py.Obj :=
  (Rfc4357.id_CryptoPro_exchanges.addArcs [2])

/-- rfc4357.py:178 -/
def id_GostR3410_94_CryptoPro_XchC_ParamSet : Py.Obj :=
  (Rfc4357.id_CryptoPro_exchanges.addArcs [3])

/-- rfc4357.py:181 -/
def id_GostR3410_94_a : Py.Obj :=
  (Rfc4357.id_GostR3410_94.addArcs [1])

/-- rfc4357.py:183 -/
def id_GostR3410_94_aBis : Py.Obj :=
  (Rfc4357.id_GostR3410_94.addArcs [2])

/-- rfc4357.py:185 -/
def id_GostR3410_94_b : Py.Obj :=
  (Rfc4357.id_GostR3410_94.addArcs [3])

/-- rfc4357.py:187 -/
def id_GostR3410_94_bBis : Py.Obj :=
  (Rfc4357.id_GostR3410_94.addArcs [4])

/-- rfc4357.py:190 -/
def id_GostR3411_94_TestParamSet : Py.Obj :=
  (Rfc4357.id_CryptoPro_hashes.addArcs [0])

/-- rfc4357.py:192 -/
def id_GostR3411_94_CryptoProParamSet : Py.Obj :=
  (Rfc4357.id_CryptoPro_hashes.addArcs [1])

/-- rfc4357.py:197-198 `class Gost28147_89_ParamSet(univ.ObjectIdentifier)` -/
def Gost28147_89_ParamSet__0 : Py.Obj :=
  Py.univ.ObjectIdentifier

/-- rfc4357.py:200-209 `Gost28147_89_ParamSet.subtypeSpec = ...` -/
def Gost28147_89_ParamSet : Py.Obj :=
  Rfc4357.Gost28147_89_ParamSet__0.setSubtypeSpec (Py.SingleValueConstraint [Rfc4357.id_Gost28147_89_TestParamSet.value, Rfc4357.id_Gost28147_89_CryptoPro_A_ParamSet.value, Rfc4357.id_Gost28147_89_CryptoPro_B_ParamSet.value, Rfc4357.id_Gost28147_89_CryptoPro_C_ParamSet.value, Rfc4357.id_Gost28147_89_CryptoPro_D_ParamSet.value, Rfc4357.id_Gost28147_89_CryptoPro_Oscar_1_1_ParamSet.value, Rfc4357.id_Gost28147_89_CryptoPro_Oscar_1_0_ParamSet.value, Rfc4357.id_Gost28147_89_CryptoPro_RIC_1_ParamSet.value])

/-- rfc4357.py:212-213 `class Gost28147_89_BlobParameters(univ.Sequence)` -/
def Gost28147_89_BlobParameters__0 : Py.Obj :=
  Py.univ.Sequence

/-- rfc4357.py:215-217 `Gost28147_89_BlobParameters.componentType = ...` -/
def Gost28147_89_BlobParameters : Py.Obj :=
  Rfc4357.Gost28147_89_BlobParameters__0.setComponentType (Py.NamedTypes [
    Py.NamedType "encryptionParamSet" Rfc4357.Gost28147_89_ParamSet.call])

/-- rfc4357.py:220-221 `class Gost28147_89_MAC(univ.OctetString)` -/
def Gost28147_89_MAC__0 : Py.Obj :=
  Py.univ.OctetString

/-- rfc4357.py:223 `Gost28147_89_MAC.subtypeSpec = ...` -/
def Gost28147_89_MAC : Py.Obj :=
  Rfc4357.Gost28147_89_MAC__0.setSubtypeSpec (Py.ValueSizeConstraint (.fin 1) (.fin 4))

/-- rfc4357.py:226-227 `class Gost28147_89_Key(univ.OctetString)` -/
def Gost28147_89_Key__0 : Py.Obj :=
  Py.univ.OctetString

/-- rfc4357.py:229 `Gost28147_89_Key.subtypeSpec = ...` -/
def Gost28147_89_Key : Py.Obj :=
  Rfc4357.Gost28147_89_Key__0.setSubtypeSpec (Py.ValueSizeConstraint (.fin 32) (.fin 32))

/-- rfc4357.py:232-233 `class Gost28147_89_EncryptedKey(univ.Sequence)` -/
def Gost28147_89_EncryptedKey__0 : Py.Obj :=
  Py.univ.Sequence

/-- rfc4357.py:235-240 `Gost28147_89_EncryptedKey.componentType = ...` -/
def Gost28147_89_EncryptedKey : Py.Obj :=
  Rfc4357.Gost28147_89_EncryptedKey__0.setComponentType (Py.NamedTypes [
    Py.NamedType "encryptedKey" Rfc4357.Gost28147_89_Key.call,
    Py.OptionalNamedType "maskKey" (Rfc4357.Gost28147_89_Key.call.implicitTag (Py.Tag .context false 0)),
    Py.NamedType "macKey" Rfc4357.Gost28147_89_MAC.call])

/-- rfc4357.py:243-244 `class Gost28147_89_IV(univ.OctetString)` -/
def Gost28147_89_IV__0 : Py.Obj :=
  Py.univ.OctetString

/-- rfc4357.py:246 `Gost28147_89_IV.subtypeSpec = ...` -/
def Gost28147_89_IV : Py.Obj :=
  Rfc4357.Gost28147_89_IV__0.setSubtypeSpec (Py.ValueSizeConstraint (.fin 8) (.fin 8))

/-- rfc4357.py:249-250 `class Gost28147_89_UZ(univ.OctetString)` -/
def Gost28147_89_UZ__0 : Py.Obj :=
  Py.univ.OctetString

/-- rfc4357.py:252 `Gost28147_89_UZ.subtypeSpec = ...` -/
def Gost28147_89_UZ : Py.Obj :=
  Rfc4357.Gost28147_89_UZ__0.setSubtypeSpec (Py.ValueSizeConstraint (.fin 64) (.fin 64))

/-- rfc4357.py:255-256 `class Gost28147_89_ParamSetParameters(univ.Sequence)` -/
def Gost28147_89_ParamSetParameters__0 : Py.Obj :=
  Py.univ.Sequence

/-- rfc4357.py:258-271 `Gost28147_89_ParamSetParameters.componentType = ...` -/
def Gost28147_89_ParamSetParameters : Py.Obj :=
  Rfc4357.Gost28147_89_ParamSetParameters__0.setComponentType (Py.NamedTypes [
    Py.NamedType "eUZ" Rfc4357.Gost28147_89_UZ.call,
    Py.NamedType "mode" (Py.univ.Integer.call.setNamedValues (Py.NamedValues [("gost28147-89-CNT", 0), ("gost28147-89-CFB", 1), ("cryptoPro-CBC", 2)])),
    Py.NamedType "shiftBits" (Py.univ.Integer.call.setNamedValues (Py.NamedValues [("gost28147-89-block", 64)])),
    Py.NamedType "keyMeshing" Rfc4357.AlgorithmIdentifier.call])

/-- rfc4357.py:274-275 `class Gost28147_89_Parameters(univ.Sequence)` -/
def Gost28147_89_Parameters__0 : Py.Obj :=
  Py.univ.Sequence

/-- rfc4357.py:277-280 `Gost28147_89_Parameters.componentType = ...` -/
def Gost28147_89_Parameters : Py.Obj :=
  Rfc4357.Gost28147_89_Parameters__0.setComponentType (Py.NamedTypes [
    Py.NamedType "iv" Rfc4357.Gost28147_89_IV.call,
    Py.NamedType "encryptionParamSet" Rfc4357.Gost28147_89_ParamSet.call])

/-- rfc4357.py:283-284 `class GostR3410_2001_CertificateSignature(univ.BitString)` -/
def GostR3410_2001_CertificateSignature__0 : Py.Obj :=
  Py.univ.BitString

/-- rfc4357.py:286 `GostR3410_2001_CertificateSignature.subtypeSpec = ...` -/
def GostR3410_2001_CertificateSignature : Py.Obj :=
  Rfc4357.GostR3410_2001_CertificateSignature__0.setSubtypeSpec (Py.ValueSizeConstraint (.fin 256) (.fin 512))

/-- rfc4357.py:289-290 `class GostR3410_2001_ParamSetParameters(univ.Sequence)` -/
def GostR3410_2001_ParamSetParameters__0 : Py.Obj :=
  Py.univ.Sequence

/-- rfc4357.py:292-299 `GostR3410_2001_ParamSetParameters.componentType = ...` -/
def GostR3410_2001_ParamSetParameters : Py.Obj :=
  Rfc4357.GostR3410_2001_ParamSetParameters__0.setComponentType (Py.NamedTypes [
    Py.NamedType "a" Py.univ.Integer.call,
    Py.NamedType "b" Py.univ.Integer.call,
    Py.NamedType "p" Py.univ.Integer.call,
    Py.NamedType "q" Py.univ.Integer.call,
    Py.NamedType "x" Py.univ.Integer.call,
    Py.NamedType "y" Py.univ.Integer.call])

/-- rfc4357.py:302-303 `class GostR3410_2001_PublicKey(univ.OctetString)` -/
def GostR3410_2001_PublicKey__0 : Py.Obj :=
  Py.univ.OctetString

/-- rfc4357.py:305 `GostR3410_2001_PublicKey.subtypeSpec = ...` -/
def GostR3410_2001_PublicKey : Py.Obj :=
  Rfc4357.GostR3410_2001_PublicKey__0.setSubtypeSpec (Py.ValueSizeConstraint (.fin 64) (.fin 64))

/-- rfc4357.py:308-309 `class GostR3410_2001_PublicKeyParameters(univ.Sequence)` -/
def GostR3410_2001_PublicKeyParameters__0 : Py.Obj :=
  Py.univ.Sequence

/-- rfc4357.py:311-329 `GostR3410_2001_PublicKeyParameters.componentType = ...` -/
def GostR3410_2001_PublicKeyParameters : Py.Obj :=
  Rfc4357.GostR3410_2001_PublicKeyParameters__0.setComponentType (Py.NamedTypes [
    Py.NamedType "publicKeyParamSet" (Py.univ.ObjectIdentifier.call.addSubtypeSpec (Py.SingleValueConstraint [Rfc4357.id_GostR3410_2001_TestParamSet.value, Rfc4357.id_GostR3410_2001_CryptoPro_A_ParamSet.value, Rfc4357.id_GostR3410_2001_CryptoPro_B_ParamSet.value, Rfc4357.id_GostR3410_2001_CryptoPro_C_ParamSet.value, Rfc4357.id_GostR3410_2001_CryptoPro_XchA_ParamSet.value, Rfc4357.id_GostR3410_2001_CryptoPro_XchB_ParamSet.value])),
    Py.NamedType "digestParamSet" (Py.univ.ObjectIdentifier.call.addSubtypeSpec (Py.SingleValueConstraint [Rfc4357.id_GostR3411_94_TestParamSet.value, Rfc4357.id_GostR3411_94_CryptoProParamSet.value])),
    Py.DefaultedNamedType "encryptionParamSet" (Rfc4357.Gost28147_89_ParamSet.call.callObj Rfc4357.id_Gost28147_89_CryptoPro_A_ParamSet)])

/-- rfc4357.py:332-333 `class GostR3410_94_CertificateSignature(univ.BitString)` -/
def GostR3410_94_CertificateSignature__0 : Py.Obj :=
  Py.univ.BitString

/-- rfc4357.py:335 `GostR3410_94_CertificateSignature.subtypeSpec = ...` -/
def GostR3410_94_CertificateSignature : Py.Obj :=
  Rfc4357.GostR3410_94_CertificateSignature__0.setSubtypeSpec (Py.ValueSizeConstraint (.fin 256) (.fin 512))

/-- rfc4357.py:338-339 `class GostR3410_94_ParamSetParameters_t(univ.Integer)` -/
def GostR3410_94_ParamSetParameters_t__0 : Py.Obj :=
  Py.univ.Integer

/-- rfc4357.py:341 `GostR3410_94_ParamSetParameters_t.subtypeSpec = ...` -/
def GostR3410_94_ParamSetParameters_t : Py.Obj :=
  Rfc4357.GostR3410_94_ParamSetParameters_t__0.setSubtypeSpec (Py.SingleValueConstraint [(.int 512), (.int 1024)])

/-- rfc4357.py:344-345 `class GostR3410_94_ParamSetParameters(univ.Sequence)` -/
def GostR3410_94_ParamSetParameters__0 : Py.Obj :=
  Py.univ.Sequence

/-- rfc4357.py:347-353 `GostR3410_94_ParamSetParameters.componentType = ...` -/
def GostR3410_94_ParamSetParameters : Py.Obj :=
  Rfc4357.GostR3410_94_ParamSetParameters__0.setComponentType (Py.NamedTypes [
    Py.NamedType "t" Rfc4357.GostR3410_94_ParamSetParameters_t.call,
    Py.NamedType "p" Py.univ.Integer.call,
    Py.NamedType "q" Py.univ.Integer.call,
    Py.NamedType "a" Py.univ.Integer.call,
    Py.OptionalNamedType "validationAlgorithm" Rfc4357.AlgorithmIdentifier.call])

/-- rfc4357.py:356-357 `class GostR3410_94_PublicKey(univ.OctetString)` -/
def GostR3410_94_PublicKey__0 : Py.Obj :=
  Py.univ.OctetString

/-- rfc4357.py:359-362 `GostR3410_94_PublicKey.subtypeSpec = ...` -/
def GostR3410_94_PublicKey : Py.Obj :=
  Rfc4357.GostR3410_94_PublicKey__0.setSubtypeSpec (Py.ConstraintsUnion [(Py.ValueSizeConstraint (.fin 64) (.fin 64)), (Py.ValueSizeConstraint (.fin 128) (.fin 128))])

/-- rfc4357.py:365-366 `class GostR3410_94_PublicKeyParameters(univ.Sequence)` -/
def GostR3410_94_PublicKeyParameters__0 : Py.Obj :=
  Py.univ.Sequence

/-- rfc4357.py:368-388 `GostR3410_94_PublicKeyParameters.componentType = ...` -/
def GostR3410_94_PublicKeyParameters : Py.Obj :=
  Rfc4357.GostR3410_94_PublicKeyParameters__0.setComponentType (Py.NamedTypes [
    Py.NamedType "publicKeyParamSet" (Py.univ.ObjectIdentifier.call.addSubtypeSpec (Py.SingleValueConstraint [Rfc4357.id_GostR3410_94_TestParamSet.value, Rfc4357.id_GostR3410_94_CryptoPro_A_ParamSet.value, Rfc4357.id_GostR3410_94_CryptoPro_B_ParamSet.value, Rfc4357.id_GostR3410_94_CryptoPro_C_ParamSet.value, Rfc4357.id_GostR3410_94_CryptoPro_D_ParamSet.value, Rfc4357.id_GostR3410_94_CryptoPro_XchA_ParamSet.value, Rfc4357.id_GostR3410_94_CryptoPro_XchB_ParamSet.value, Rfc4357.id_GostR3410_94_CryptoPro_XchC_ParamSet.value])),
    Py.NamedType "digestParamSet" (Py.univ.ObjectIdentifier.call.addSubtypeSpec (Py.SingleValueConstraint [Rfc4357.id_GostR3411_94_TestParamSet.value, Rfc4357.id_GostR3411_94_CryptoProParamSet.value])),
    Py.DefaultedNamedType "encryptionParamSet" (Rfc4357.Gost28147_89_ParamSet.call.callObj Rfc4357.id_Gost28147_89_CryptoPro_A_ParamSet)])

/-- rfc4357.py:391-392 `class GostR3410_94_ValidationBisParameters_c(univ.Integer)` -/
def GostR3410_94_ValidationBisParameters_c__0 : Py.Obj :=
  Py.univ.Integer

/-- rfc4357.py:394 `GostR3410_94_ValidationBisParameters_c.subtypeSpec = ...` -/
def GostR3410_94_ValidationBisParameters_c : Py.Obj :=
  Rfc4357.GostR3410_94_ValidationBisParameters_c__0.setSubtypeSpec (Py.ValueRangeConstraint (.fin 0) (.fin 4294967295))

/-- rfc4357.py:397-398 `class GostR3410_94_ValidationBisParameters(univ.Sequence)` -/
def GostR3410_94_ValidationBisParameters__0 : Py.Obj :=
  Py.univ.Sequence

/-- rfc4357.py:400-404 `GostR3410_94_ValidationBisParameters.componentType = ...` -/
def GostR3410_94_ValidationBisParameters : Py.Obj :=
  Rfc4357.GostR3410_94_ValidationBisParameters__0.setComponentType (Py.NamedTypes [
    Py.NamedType "x0" Rfc4357.GostR3410_94_ValidationBisParameters_c.call,
    Py.NamedType "c" Rfc4357.GostR3410_94_ValidationBisParameters_c.call,
    Py.OptionalNamedType "d" Py.univ.Integer.call])

/-- rfc4357.py:407-408 `class GostR3410_94_ValidationParameters_c(univ.Integer)` -/
def GostR3410_94_ValidationParameters_c__0 : Py.Obj :=
  Py.univ.Integer

/-- rfc4357.py:410 `GostR3410_94_ValidationParameters_c.subtypeSpec = ...` -/
def GostR3410_94_ValidationParameters_c : Py.Obj :=
  Rfc4357.GostR3410_94_ValidationParameters_c__0.setSubtypeSpec (Py.ValueRangeConstraint (.fin 0) (.fin 65535))

/-- rfc4357.py:413-414 `class GostR3410_94_ValidationParameters(univ.Sequence)` -/
def GostR3410_94_ValidationParameters__0 : Py.Obj :=
  Py.univ.Sequence

/-- rfc4357.py:416-420 `GostR3410_94_ValidationParameters.componentType = ...` -/
def GostR3410_94_ValidationParameters : Py.Obj :=
  Rfc4357.GostR3410_94_ValidationParameters__0.setComponentType (Py.NamedTypes [
    Py.NamedType "x0" Rfc4357.GostR3410_94_ValidationParameters_c.call,
    Py.NamedType "c" Rfc4357.GostR3410_94_ValidationParameters_c.call,
    Py.OptionalNamedType "d" Py.univ.Integer.call])

/-- rfc4357.py:423-424 `class GostR3411_94_Digest(univ.OctetString)` -/
def GostR3411_94_Digest__0 : Py.Obj :=
  Py.univ.OctetString

/-- rfc4357.py:426 `GostR3411_94_Digest.subtypeSpec = ...` -/
def GostR3411_94_Digest : Py.Obj :=
  Rfc4357.GostR3411_94_Digest__0.setSubtypeSpec (Py.ValueSizeConstraint (.fin 32) (.fin 32))

/-- rfc4357.py:429-430 `class GostR3411_94_DigestParameters(univ.ObjectIdentifier)` -/
def GostR3411_94_DigestParameters__0 : Py.Obj :=
  Py.univ.ObjectIdentifier

/-- rfc4357.py:432-435 `GostR3411_94_DigestParameters.subtypeSpec = ...` -/
def GostR3411_94_DigestParameters : Py.Obj :=
  Rfc4357.GostR3411_94_DigestParameters__0.setSubtypeSpec (Py.ConstraintsUnion [(Py.SingleValueConstraint [Rfc4357.id_GostR3411_94_TestParamSet.value]), (Py.SingleValueConstraint [Rfc4357.id_GostR3411_94_CryptoProParamSet.value])])

/-- rfc4357.py:438-439 `class GostR3411_94_ParamSetParameters(univ.Sequence)` -/
def GostR3411_94_ParamSetParameters__0 : Py.Obj :=
  Py.univ.Sequence

/-- rfc4357.py:441-444 `GostR3411_94_ParamSetParameters.componentType = ...` -/
def GostR3411_94_ParamSetParameters : Py.Obj :=
  Rfc4357.GostR3411_94_ParamSetParameters__0.setComponentType (Py.NamedTypes [
    Py.NamedType "hUZ" Rfc4357.Gost28147_89_UZ.call,
    Py.NamedType "h0" Rfc4357.GostR3411_94_Digest.call])

/-- rfc4357.py:449-475 -/
def _algorithmIdentifierMapUpdate : Py.Entries :=
  [(Rfc4357.id_Gost28147_89.value, Rfc4357.Gost28147_89_Parameters.call.ty),
    (Rfc4357.id_Gost28147_89_TestParamSet.value, Rfc4357.Gost28147_89_ParamSetParameters.call.ty),
    (Rfc4357.id_Gost28147_89_CryptoPro_A_ParamSet.value, Rfc4357.Gost28147_89_ParamSetParameters.call.ty),
    (Rfc4357.id_Gost28147_89_CryptoPro_B_ParamSet.value, Rfc4357.Gost28147_89_ParamSetParameters.call.ty),
    (Rfc4357.id_Gost28147_89_CryptoPro_C_ParamSet.value, Rfc4357.Gost28147_89_ParamSetParameters.call.ty),
    (Rfc4357.id_Gost28147_89_CryptoPro_D_ParamSet.value, Rfc4357.Gost28147_89_ParamSetParameters.call.ty),
    (Rfc4357.id_Gost28147_89_CryptoPro_KeyMeshing.value, (Py.univ.Null.call.callStr "").ty),
    (Rfc4357.id_Gost28147_89_None_KeyMeshing.value, (Py.univ.Null.call.callStr "").ty),
    (Rfc4357.id_GostR3410_94.value, Rfc4357.GostR3410_94_PublicKeyParameters.call.ty),
    (Rfc4357.id_GostR3410_94_TestParamSet.value, Rfc4357.GostR3410_94_ParamSetParameters.call.ty),
    (Rfc4357.id_GostR3410_94_CryptoPro_A_ParamSet.value, Rfc4357.GostR3410_94_ParamSetParameters.call.ty),
    (Rfc4357.id_GostR3410_94_CryptoPro_B_ParamSet.value, Rfc4357.GostR3410_94_ParamSetParameters.call.ty),
    (Rfc4357.id_GostR3410_94_CryptoPro_C_ParamSet.value, Rfc4357.GostR3410_94_ParamSetParameters.call.ty),
    (Rfc4357.id_GostR3410_94_CryptoPro_D_ParamSet.value, Rfc4357.GostR3410_94_ParamSetParameters.call.ty),
    (Rfc4357.id_GostR3410_94_CryptoPro_XchA_ParamSet.value, Rfc4357.GostR3410_94_ParamSetParameters.call.ty),
    (Rfc4357.id_GostR3410_94_CryptoPro_XchB_ParamSet.value, Rfc4357.GostR3410_94_ParamSetParameters.call.ty),
    (Rfc4357.id_GostR3410_94_CryptoPro_XchC_ParamSet.value, Rfc4357.GostR3410_94_ParamSetParameters.call.ty),
    (Rfc4357.id_GostR3410_94_a.value, Rfc4357.GostR3410_94_ValidationParameters.call.ty),
    (Rfc4357.id_GostR3410_94_aBis.value, Rfc4357.GostR3410_94_ValidationBisParameters.call.ty),
    (Rfc4357.id_GostR3410_94_b.value, Rfc4357.GostR3410_94_ValidationParameters.call.ty),
    (Rfc4357.id_GostR3410_94_bBis.value, Rfc4357.GostR3410_94_ValidationBisParameters.call.ty),
    (Rfc4357.id_GostR3410_2001.value, (Py.univ.Null.call.callStr "").ty),
    (Rfc4357.id_GostR3411_94.value, (Py.univ.Null.call.callStr "").ty),
    (Rfc4357.id_GostR3411_94_TestParamSet.value, Rfc4357.GostR3411_94_ParamSetParameters.call.ty),
    (Rfc4357.id_GostR3411_94_CryptoProParamSet.value, Rfc4357.GostR3411_94_ParamSetParameters.call.ty)]

/-- Modules of this package imported by rfc4357.py, in textual order. -/
def imports : List Py.Ident :=
  [(Py.mod 15 "rfc5280")]

/-- Dictionary operations executed when rfc4357.py is imported, in program order. -/
def effects : List Py.Effect :=
  [.create (Py.map 65 "rfc4357._algorithmIdentifierMapUpdate") Rfc4357._algorithmIdentifierMapUpdate /- rfc4357.py:449-475 -/,
   .update (Py.map 3 "rfc5280.algorithmIdentifierMap") Rfc4357._algorithmIdentifierMapUpdate /- rfc4357.py:477 -/]

/-- ASN.1 types rfc4357.py binds at module level (final version of each name), plus nested classes. -/
def classes : List (String × Py.Obj) :=
  [("rfc4357.AlgorithmIdentifier", Rfc4357.AlgorithmIdentifier),
   ("rfc4357.Gost28147_89_ParamSet", Rfc4357.Gost28147_89_ParamSet),
   ("rfc4357.Gost28147_89_BlobParameters", Rfc4357.Gost28147_89_BlobParameters),
   ("rfc4357.Gost28147_89_MAC", Rfc4357.Gost28147_89_MAC),
   ("rfc4357.Gost28147_89_Key", Rfc4357.Gost28147_89_Key),
   ("rfc4357.Gost28147_89_EncryptedKey", Rfc4357.Gost28147_89_EncryptedKey),
   ("rfc4357.Gost28147_89_IV", Rfc4357.Gost28147_89_IV),
   ("rfc4357.Gost28147_89_UZ", Rfc4357.Gost28147_89_UZ),
   ("rfc4357.Gost28147_89_ParamSetParameters", Rfc4357.Gost28147_89_ParamSetParameters),
   ("rfc4357.Gost28147_89_Parameters", Rfc4357.Gost28147_89_Parameters),
   ("rfc4357.GostR3410_2001_CertificateSignature", Rfc4357.GostR3410_2001_CertificateSignature),
   ("rfc4357.GostR3410_2001_ParamSetParameters", Rfc4357.GostR3410_2001_ParamSetParameters),
   ("rfc4357.GostR3410_2001_PublicKey", Rfc4357.GostR3410_2001_PublicKey),
   ("rfc4357.GostR3410_2001_PublicKeyParameters", Rfc4357.GostR3410_2001_PublicKeyParameters),
   ("rfc4357.GostR3410_94_CertificateSignature", Rfc4357.GostR3410_94_CertificateSignature),
   ("rfc4357.GostR3410_94_ParamSetParameters_t", Rfc4357.GostR3410_94_ParamSetParameters_t),
   ("rfc4357.GostR3410_94_ParamSetParameters", Rfc4357.GostR3410_94_ParamSetParameters),
   ("rfc4357.GostR3410_94_PublicKey", Rfc4357.GostR3410_94_PublicKey),
   ("rfc4357.GostR3410_94_PublicKeyParameters", Rfc4357.GostR3410_94_PublicKeyParameters),
   ("rfc4357.GostR3410_94_ValidationBisParameters_c", Rfc4357.GostR3410_94_ValidationBisParameters_c),
   ("rfc4357.GostR3410_94_ValidationBisParameters", Rfc4357.GostR3410_94_ValidationBisParameters),
   ("rfc4357.GostR3410_94_ValidationParameters_c", Rfc4357.GostR3410_94_ValidationParameters_c),
   ("rfc4357.GostR3410_94_ValidationParameters", Rfc4357.GostR3410_94_ValidationParameters),
   ("rfc4357.GostR3411_94_Digest", Rfc4357.GostR3411_94_Digest),
   ("rfc4357.GostR3411_94_DigestParameters", Rfc4357.GostR3411_94_DigestParameters),
   ("rfc4357.GostR3411_94_ParamSetParameters", Rfc4357.GostR3411_94_ParamSetParameters)]

/-- pyasn1 instances rfc4357.py binds at module level. -/
def objects : List (String × Py.Obj) :=
  [("rfc4357.id_CryptoPro", Rfc4357.id_CryptoPro),
   ("rfc4357.id_CryptoPro_modules", Rfc4357.id_CryptoPro_modules),
   ("rfc4357.id_CryptoPro_extensions", Rfc4357.id_CryptoPro_extensions),
   ("rfc4357.id_CryptoPro_policyIds", Rfc4357.id_CryptoPro_policyIds),
   ("rfc4357.id_CryptoPro_policyQt", Rfc4357.id_CryptoPro_policyQt),
   ("rfc4357.cryptographic_Gost_Useful_Definitions", Rfc4357.cryptographic_Gost_Useful_Definitions),
   ("rfc4357.gostR3411_94_DigestSyntax", Rfc4357.gostR3411_94_DigestSyntax),
   ("rfc4357.gostR3410_94_PKISyntax", Rfc4357.gostR3410_94_PKISyntax),
   ("rfc4357.gostR3410_94_SignatureSyntax", Rfc4357.gostR3410_94_SignatureSyntax),
   ("rfc4357.gost28147_89_EncryptionSyntax", Rfc4357.gost28147_89_EncryptionSyntax),
   ("rfc4357.gostR3410_EncryptionSyntax", Rfc4357.gostR3410_EncryptionSyntax),
   ("rfc4357.gost28147_89_ParamSetSyntax", Rfc4357.gost28147_89_ParamSetSyntax),
   ("rfc4357.gostR3411_94_ParamSetSyntax", Rfc4357.gostR3411_94_ParamSetSyntax),
   ("rfc4357.gostR3410_94_ParamSetSyntax", Rfc4357.gostR3410_94_ParamSetSyntax),
   ("rfc4357.gostR3410_2001_PKISyntax", Rfc4357.gostR3410_2001_PKISyntax),
   ("rfc4357.gostR3410_2001_SignatureSyntax", Rfc4357.gostR3410_2001_SignatureSyntax),
   ("rfc4357.gostR3410_2001_ParamSetSyntax", Rfc4357.gostR3410_2001_ParamSetSyntax),
   ("rfc4357.gost_CryptoPro_ExtendedKeyUsage", Rfc4357.gost_CryptoPro_ExtendedKeyUsage),
   ("rfc4357.gost_CryptoPro_PrivateKey", Rfc4357.gost_CryptoPro_PrivateKey),
   ("rfc4357.gost_CryptoPro_PKIXCMP", Rfc4357.gost_CryptoPro_PKIXCMP),
   ("rfc4357.gost_CryptoPro_TLS", Rfc4357.gost_CryptoPro_TLS),
   ("rfc4357.gost_CryptoPro_Policy", Rfc4357.gost_CryptoPro_Policy),
   ("rfc4357.gost_CryptoPro_Constants", Rfc4357.gost_CryptoPro_Constants),
   ("rfc4357.id_CryptoPro_algorithms", Rfc4357.id_CryptoPro_algorithms),
   ("rfc4357.id_GostR3411_94_with_GostR3410_2001", Rfc4357.id_GostR3411_94_with_GostR3410_2001),
   ("rfc4357.id_GostR3411_94_with_GostR3410_94", Rfc4357.id_GostR3411_94_with_GostR3410_94),
   ("rfc4357.id_GostR3411_94", Rfc4357.id_GostR3411_94),
   ("rfc4357.id_Gost28147_89_None_KeyMeshing", Rfc4357.id_Gost28147_89_None_KeyMeshing),
   ("rfc4357.id_Gost28147_89_CryptoPro_KeyMeshing", Rfc4357.id_Gost28147_89_CryptoPro_KeyMeshing),
   ("rfc4357.id_GostR3410_2001", Rfc4357.id_GostR3410_2001),
   ("rfc4357.id_GostR3410_94", Rfc4357.id_GostR3410_94),
   ("rfc4357.id_Gost28147_89", Rfc4357.id_Gost28147_89),
   ("rfc4357.id_Gost28147_89_MAC", Rfc4357.id_Gost28147_89_MAC),
   ("rfc4357.id_CryptoPro_hashes", Rfc4357.id_CryptoPro_hashes),
   ("rfc4357.id_CryptoPro_encrypts", Rfc4357.id_CryptoPro_encrypts),
   ("rfc4357.id_CryptoPro_signs", Rfc4357.id_CryptoPro_signs),
   ("rfc4357.id_CryptoPro_exchanges", Rfc4357.id_CryptoPro_exchanges),
   ("rfc4357.id_CryptoPro_ecc_signs", Rfc4357.id_CryptoPro_ecc_signs),
   ("rfc4357.id_CryptoPro_ecc_exchanges", Rfc4357.id_CryptoPro_ecc_exchanges),
   ("rfc4357.id_CryptoPro_private_keys", Rfc4357.id_CryptoPro_private_keys),
   ("rfc4357.id_CryptoPro_pkixcmp_infos", Rfc4357.id_CryptoPro_pkixcmp_infos),
   ("rfc4357.id_CryptoPro_audit_service_types", Rfc4357.id_CryptoPro_audit_service_types),
   ("rfc4357.id_CryptoPro_audit_record_types", Rfc4357.id_CryptoPro_audit_record_types),
   ("rfc4357.id_CryptoPro_attributes", Rfc4357.id_CryptoPro_attributes),
   ("rfc4357.id_CryptoPro_name_service_types", Rfc4357.id_CryptoPro_name_service_types),
   ("rfc4357.id_GostR3410_2001DH", Rfc4357.id_GostR3410_2001DH),
   ("rfc4357.id_GostR3410_94DH", Rfc4357.id_GostR3410_94DH),
   ("rfc4357.id_Gost28147_89_TestParamSet", Rfc4357.id_Gost28147_89_TestParamSet),
   ("rfc4357.id_Gost28147_89_CryptoPro_A_ParamSet", Rfc4357.id_Gost28147_89_CryptoPro_A_ParamSet),
   ("rfc4357.id_Gost28147_89_CryptoPro_B_ParamSet", Rfc4357.id_Gost28147_89_CryptoPro_B_ParamSet),
   ("rfc4357.id_Gost28147_89_CryptoPro_C_ParamSet", Rfc4357.id_Gost28147_89_CryptoPro_C_ParamSet),
   ("rfc4357.id_Gost28147_89_CryptoPro_D_ParamSet", Rfc4357.id_Gost28147_89_CryptoPro_D_ParamSet),
   ("rfc4357.id_Gost28147_89_CryptoPro_Oscar_1_1_ParamSet", Rfc4357.id_Gost28147_89_CryptoPro_Oscar_1_1_ParamSet),
   ("rfc4357.id_Gost28147_89_CryptoPro_Oscar_1_0_ParamSet", Rfc4357.id_Gost28147_89_CryptoPro_Oscar_1_0_ParamSet),
   ("rfc4357.id_Gost28147_89_CryptoPro_RIC_1_ParamSet", Rfc4357.id_Gost28147_89_CryptoPro_RIC_1_ParamSet),
   ("rfc4357.id_GostR3410_2001_TestParamSet", Rfc4357.id_GostR3410_2001_TestParamSet),
   ("rfc4357.id_GostR3410_2001_CryptoPro_A_ParamSet", Rfc4357.id_GostR3410_2001_CryptoPro_A_ParamSet),
   ("rfc4357.id_GostR3410_2001_CryptoPro_B_ParamSet", Rfc4357.id_GostR3410_2001_CryptoPro_B_ParamSet),
   ("rfc4357.id_GostR3410_2001_CryptoPro_C_ParamSet", Rfc4357.id_GostR3410_2001_CryptoPro_C_ParamSet),
   ("rfc4357.id_GostR3410_2001_CryptoPro_XchA_ParamSet", Rfc4357.id_GostR3410_2001_CryptoPro_XchA_ParamSet),
   ("rfc4357.id_GostR3410_2001_CryptoPro_XchB_ParamSet", Rfc4357.id_GostR3410_2001_CryptoPro_XchB_ParamSet),
   ("rfc4357.id_GostR3410_94_TestParamSet", Rfc4357.id_GostR3410_94_TestParamSet),
   ("rfc4357.id_GostR3410_94_CryptoPro_A_ParamSet", Rfc4357.id_GostR3410_94_CryptoPro_A_ParamSet),
   ("rfc4357.id_GostR3410_94_CryptoPro_B_ParamSet", Rfc4357.id_GostR3410_94_CryptoPro_B_ParamSet),
   ("rfc4357.id_GostR3410_94_CryptoPro_C_ParamSet", Rfc4357.id_GostR3410_94_CryptoPro_C_ParamSet),
   ("rfc4357.id_GostR3410_94_CryptoPro_D_ParamSet", Rfc4357.id_GostR3410_94_CryptoPro_D_ParamSet),
   ("rfc4357.id_GostR3410_94_CryptoPro_XchA_ParamSet", Rfc4357.id_GostR3410_94_CryptoPro_XchA_ParamSet),
   ("rfc4357.id_GostR3410_94_CryptoPro_XchB_ParamSet", Rfc4357.id_GostR3410_94_CryptoPro_XchB_ParamSet),
   ("rfc4357.id_GostR3410_94_CryptoPro_XchC_ParamSet", Rfc4357.id_GostR3410_94_CryptoPro_XchC_ParamSet),
   ("rfc4357.id_GostR3410_94_a", Rfc4357.id_GostR3410_94_a),
   ("rfc4357.id_GostR3410_94_aBis", Rfc4357.id_GostR3410_94_aBis),
   ("rfc4357.id_GostR3410_94_b", Rfc4357.id_GostR3410_94_b),
   ("rfc4357.id_GostR3410_94_bBis", Rfc4357.id_GostR3410_94_bBis),
   ("rfc4357.id_GostR3411_94_TestParamSet", Rfc4357.id_GostR3411_94_TestParamSet),
   ("rfc4357.id_GostR3411_94_CryptoProParamSet", Rfc4357.id_GostR3411_94_CryptoProParamSet)]

/-- pyasn1 instances rfc4357.py fills in by item assignment. -/
def protos : List (String × Py.Proto) :=
  []

/-- Every place of rfc4357.py that instantiates a class of the package: where, the class as it is
at that point, and the class as it is when the import has finished. -/
def snapshots : List Py.Snapshot :=
  [⟨"rfc4357.py:216", Rfc4357.Gost28147_89_ParamSet, Rfc4357.Gost28147_89_ParamSet⟩,
   ⟨"rfc4357.py:236", Rfc4357.Gost28147_89_Key, Rfc4357.Gost28147_89_Key⟩,
   ⟨"rfc4357.py:237", Rfc4357.Gost28147_89_Key, Rfc4357.Gost28147_89_Key⟩,
   ⟨"rfc4357.py:239", Rfc4357.Gost28147_89_MAC, Rfc4357.Gost28147_89_MAC⟩,
   ⟨"rfc4357.py:259", Rfc4357.Gost28147_89_UZ, Rfc4357.Gost28147_89_UZ⟩,
   ⟨"rfc4357.py:270", Rfc4357.AlgorithmIdentifier, Rfc4357.AlgorithmIdentifier⟩,
   ⟨"rfc4357.py:278", Rfc4357.Gost28147_89_IV, Rfc4357.Gost28147_89_IV⟩,
   ⟨"rfc4357.py:279", Rfc4357.Gost28147_89_ParamSet, Rfc4357.Gost28147_89_ParamSet⟩,
   ⟨"rfc4357.py:327", Rfc4357.Gost28147_89_ParamSet, Rfc4357.Gost28147_89_ParamSet⟩,
   ⟨"rfc4357.py:348", Rfc4357.GostR3410_94_ParamSetParameters_t, Rfc4357.GostR3410_94_ParamSetParameters_t⟩,
   ⟨"rfc4357.py:352", Rfc4357.AlgorithmIdentifier, Rfc4357.AlgorithmIdentifier⟩,
   ⟨"rfc4357.py:386", Rfc4357.Gost28147_89_ParamSet, Rfc4357.Gost28147_89_ParamSet⟩,
   ⟨"rfc4357.py:401", Rfc4357.GostR3410_94_ValidationBisParameters_c, Rfc4357.GostR3410_94_ValidationBisParameters_c⟩,
   ⟨"rfc4357.py:402", Rfc4357.GostR3410_94_ValidationBisParameters_c, Rfc4357.GostR3410_94_ValidationBisParameters_c⟩,
   ⟨"rfc4357.py:417", Rfc4357.GostR3410_94_ValidationParameters_c, Rfc4357.GostR3410_94_ValidationParameters_c⟩,
   ⟨"rfc4357.py:418", Rfc4357.GostR3410_94_ValidationParameters_c, Rfc4357.GostR3410_94_ValidationParameters_c⟩,
   ⟨"rfc4357.py:442", Rfc4357.Gost28147_89_UZ, Rfc4357.Gost28147_89_UZ⟩,
   ⟨"rfc4357.py:443", Rfc4357.GostR3411_94_Digest, Rfc4357.GostR3411_94_Digest⟩,
   ⟨"rfc4357.py:450", Rfc4357.Gost28147_89_Parameters, Rfc4357.Gost28147_89_Parameters⟩,
   ⟨"rfc4357.py:451", Rfc4357.Gost28147_89_ParamSetParameters, Rfc4357.Gost28147_89_ParamSetParameters⟩,
   ⟨"rfc4357.py:452", Rfc4357.Gost28147_89_ParamSetParameters, Rfc4357.Gost28147_89_ParamSetParameters⟩,
   ⟨"rfc4357.py:453", Rfc4357.Gost28147_89_ParamSetParameters, Rfc4357.Gost28147_89_ParamSetParameters⟩,
   ⟨"rfc4357.py:454", Rfc4357.Gost28147_89_ParamSetParameters, Rfc4357.Gost28147_89_ParamSetParameters⟩,
   ⟨"rfc4357.py:455", Rfc4357.Gost28147_89_ParamSetParameters, Rfc4357.Gost28147_89_ParamSetParameters⟩,
   ⟨"rfc4357.py:458", Rfc4357.GostR3410_94_PublicKeyParameters, Rfc4357.GostR3410_94_PublicKeyParameters⟩,
   ⟨"rfc4357.py:459", Rfc4357.GostR3410_94_ParamSetParameters, Rfc4357.GostR3410_94_ParamSetParameters⟩,
   ⟨"rfc4357.py:460", Rfc4357.GostR3410_94_ParamSetParameters, Rfc4357.GostR3410_94_ParamSetParameters⟩,
   ⟨"rfc4357.py:461", Rfc4357.GostR3410_94_ParamSetParameters, Rfc4357.GostR3410_94_ParamSetParameters⟩,
   ⟨"rfc4357.py:462", Rfc4357.GostR3410_94_ParamSetParameters, Rfc4357.GostR3410_94_ParamSetParameters⟩,
   ⟨"rfc4357.py:463", Rfc4357.GostR3410_94_ParamSetParameters, Rfc4357.GostR3410_94_ParamSetParameters⟩,
   ⟨"rfc4357.py:464", Rfc4357.GostR3410_94_ParamSetParameters, Rfc4357.GostR3410_94_ParamSetParameters⟩,
   ⟨"rfc4357.py:465", Rfc4357.GostR3410_94_ParamSetParameters, Rfc4357.GostR3410_94_ParamSetParameters⟩,
   ⟨"rfc4357.py:466", Rfc4357.GostR3410_94_ParamSetParameters, Rfc4357.GostR3410_94_ParamSetParameters⟩,
   ⟨"rfc4357.py:467", Rfc4357.GostR3410_94_ValidationParameters, Rfc4357.GostR3410_94_ValidationParameters⟩,
   ⟨"rfc4357.py:468", Rfc4357.GostR3410_94_ValidationBisParameters, Rfc4357.GostR3410_94_ValidationBisParameters⟩,
   ⟨"rfc4357.py:469", Rfc4357.GostR3410_94_ValidationParameters, Rfc4357.GostR3410_94_ValidationParameters⟩,
   ⟨"rfc4357.py:470", Rfc4357.GostR3410_94_ValidationBisParameters, Rfc4357.GostR3410_94_ValidationBisParameters⟩,
   ⟨"rfc4357.py:473", Rfc4357.GostR3411_94_ParamSetParameters, Rfc4357.GostR3411_94_ParamSetParameters⟩,
   ⟨"rfc4357.py:474", Rfc4357.GostR3411_94_ParamSetParameters, Rfc4357.GostR3411_94_ParamSetParameters⟩]

/-- Functions rfc4357.py defines. -/
def builders : List (String × (List Py.OidArg → Py.Obj)) :=
  []

def asModule : Py.Module :=
  { id := (Py.mod 58 "rfc4357"), imports := imports, effects := effects, classes := classes, objects := objects, protos := protos, snapshots := snapshots, builders := builders }

end Rfc4357
end Verif
