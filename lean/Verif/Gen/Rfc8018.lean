import Verif.Py.Obj
import Verif.Gen.Rfc3565
import Verif.Gen.Rfc5280

/-! Transcription of /repo/pyasn1_modules/rfc8018.py (generated by tools/gen.py). -/

namespace Verif
namespace Rfc8018

/-- rfc8018.py:23 -/
def MAX : Py.Bound :=
  .inf

/-- rfc8018.py:25-33 `def _OID(*components)` -/
def _OID (components : List Py.OidArg) : Py.Obj :=
  match Py.oidLoop [] components with
  | some output => Py.univ.ObjectIdentifier.call.callArcs output
  | none => .fail "OID without value"

/-- rfc8018.py:38 alias of `rfc3565.AES_IV` -/
def AES_IV__0 : Py.Obj :=
  Rfc3565.AES_IV

/-- rfc8018.py:43 alias of `rfc5280.AlgorithmIdentifier` -/
def AlgorithmIdentifier : Py.Obj :=
  Rfc5280.AlgorithmIdentifier

/-- rfc8018.py:48 -/
def nistAlgorithms : Py.Obj :=
  (Rfc8018._OID [.num 2, .num 16, .num 840, .num 1, .num 101, .num 3, .num 4])

/-- rfc8018.py:50 -/
def aes : Py.Obj :=
  (Rfc8018._OID [.oid Rfc8018.nistAlgorithms, .num 1])

/-- rfc8018.py:52 -/
def oiw : Py.Obj :=
  (Rfc8018._OID [.num 1, .num 3, .num 14])

/-- rfc8018.py:54 -/
def rsadsi : Py.Obj :=
  (Rfc8018._OID [.num 1, .num 2, .num 840, .num 113549])

/-- rfc8018.py:56 -/
def pkcs : Py.Obj :=
  (Rfc8018._OID [.oid Rfc8018.rsadsi, .num 1])

/-- rfc8018.py:58 -/
def digestAlgorithm : Py.Obj :=
  (Rfc8018._OID [.oid Rfc8018.rsadsi, .num 2])

/-- rfc8018.py:60 -/
def encryptionAlgorithm : Py.Obj :=
  (Rfc8018._OID [.oid Rfc8018.rsadsi, .num 3])

/-- rfc8018.py:62 -/
def pkcs_5 : Py.Obj :=
  (Rfc8018._OID [.oid Rfc8018.pkcs, .num 5])

/-- rfc8018.py:68 -/
def id_hmacWithSHA1 : Py.Obj :=
  (Rfc8018._OID [.oid Rfc8018.digestAlgorithm, .num 7])

/-- rfc8018.py:70 -/
def id_hmacWithSHA224 : Py.Obj :=
  (Rfc8018._OID [.oid Rfc8018.digestAlgorithm, .num 8])

/-- rfc8018.py:72 -/
def id_hmacWithSHA256 : Py.Obj :=
  (Rfc8018._OID [.oid Rfc8018.digestAlgorithm, .num 9])

/-- rfc8018.py:74 -/
def id_hmacWithSHA384 : Py.Obj :=
  (Rfc8018._OID [.oid Rfc8018.digestAlgorithm, .num 10])

/-- rfc8018.py:76 -/
def id_hmacWithSHA512 : Py.Obj :=
  (Rfc8018._OID [.oid Rfc8018.digestAlgorithm, .num 11])

/-- rfc8018.py:78 -/
def id_hmacWithSHA512_224 : Py.Obj :=
  (Rfc8018._OID [.oid Rfc8018.digestAlgorithm, .num 12])

/-- rfc8018.py:80 -/
def id_hmacWithSHA512_256 : Py.Obj :=
  (Rfc8018._OID [.oid Rfc8018.digestAlgorithm, .num 13])

/-- rfc8018.py:85 -/
def pbeWithMD2AndDES_CBC : Py.Obj :=
  (Rfc8018._OID [.oid Rfc8018.pkcs_5, .num 1])

/-- rfc8018.py:87 -/
def pbeWithMD2AndRC2_CBC : Py.Obj :=
  (Rfc8018._OID [.oid Rfc8018.pkcs_5, .num 4])

/-- rfc8018.py:89 -/
def pbeWithMD5AndDES_CBC : Py.Obj :=
  (Rfc8018._OID [.oid Rfc8018.pkcs_5, .num 3])

/-- rfc8018.py:91 -/
def pbeWithMD5AndRC2_CBC : Py.Obj :=
  (Rfc8018._OID [.oid Rfc8018.pkcs_5, .num 6])

/-- rfc8018.py:93 -/
def pbeWithSHA1AndDES_CBC : Py.Obj :=
  (Rfc8018._OID [.oid Rfc8018.pkcs_5, .num 10])

/-- rfc8018.py:95 -/
def pbeWithSHA1AndRC2_CBC : Py.Obj :=
  (Rfc8018._OID [.oid Rfc8018.pkcs_5, .num 11])

/-- rfc8018.py:100 -/
def desCBC : Py.Obj :=
  (Rfc8018._OID [.oid Rfc8018.oiw, .num 3, .num 2, .num 7])

/-- rfc8018.py:102 -/
def des_EDE3_CBC : Py.Obj :=
  (Rfc8018._OID [.oid Rfc8018.encryptionAlgorithm, .num 7])

/-- rfc8018.py:104 -/
def rc2CBC : Py.Obj :=
  (Rfc8018._OID [.oid Rfc8018.encryptionAlgorithm, .num 2])

/-- rfc8018.py:106 -/
def rc5_CBC_PAD : Py.Obj :=
  (Rfc8018._OID [.oid Rfc8018.encryptionAlgorithm, .num 9])

/-- rfc8018.py:108 -/
def aes128_CBC_PAD : Py.Obj :=
  (Rfc8018._OID [.oid Rfc8018.aes, .num 2])

/-- rfc8018.py:110 -/
def aes192_CBC_PAD : Py.Obj :=
  (Rfc8018._OID [.oid Rfc8018.aes, .num 22])

/-- rfc8018.py:112 -/
def aes256_CBC_PAD : Py.Obj :=
  (Rfc8018._OID [.oid Rfc8018.aes, .num 42])

/-- rfc8018.py:117-118 `class PBEParameter(univ.Sequence)` -/
def PBEParameter__0 : Py.Obj :=
  Py.univ.Sequence

/-- rfc8018.py:120-124 `PBEParameter.componentType = ...` -/
def PBEParameter : Py.Obj :=
  Rfc8018.PBEParameter__0.setComponentType (Py.NamedTypes [
    Py.NamedType "salt" (Py.univ.OctetString.call.addSubtypeSpec (Py.ValueSizeConstraint (.fin 8) (.fin 8))),
    Py.NamedType "iterationCount" Py.univ.Integer.call])

/-- rfc8018.py:129 -/
def id_PBES2 : Py.Obj :=
  (Rfc8018._OID [.oid Rfc8018.pkcs_5, .num 13])

/-- rfc8018.py:132-133 `class PBES2_params(univ.Sequence)` -/
def PBES2_params__0 : Py.Obj :=
  Py.univ.Sequence

/-- rfc8018.py:135-138 `PBES2_params.componentType = ...` -/
def PBES2_params : Py.Obj :=
  Rfc8018.PBES2_params__0.setComponentType (Py.NamedTypes [
    Py.NamedType "keyDerivationFunc" Rfc8018.AlgorithmIdentifier.call,
    Py.NamedType "encryptionScheme" Rfc8018.AlgorithmIdentifier.call])

/-- rfc8018.py:143 -/
def id_PBMAC1 : Py.Obj :=
  (Rfc8018._OID [.oid Rfc8018.pkcs_5, .num 14])

/-- rfc8018.py:146-147 `class PBMAC1_params(univ.Sequence)` -/
def PBMAC1_params__0 : Py.Obj :=
  Py.univ.Sequence

/-- rfc8018.py:149-152 `PBMAC1_params.componentType = ...` -/
def PBMAC1_params : Py.Obj :=
  Rfc8018.PBMAC1_params__0.setComponentType (Py.NamedTypes [
    Py.NamedType "keyDerivationFunc" Rfc8018.AlgorithmIdentifier.call,
    Py.NamedType "messageAuthScheme" Rfc8018.AlgorithmIdentifier.call])

/-- rfc8018.py:157 -/
def id_PBKDF2 : Py.Obj :=
  (Rfc8018._OID [.oid Rfc8018.pkcs_5, .num 12])

/-- rfc8018.py:160 -/
def algid_hmacWithSHA1__0 : Py.Proto :=
  { obj := Rfc8018.AlgorithmIdentifier.call }

/-- rfc8018.py:161 `algid_hmacWithSHA1['algorithm'] = ...` -/
def algid_hmacWithSHA1__1 : Py.Proto :=
  Rfc8018.algid_hmacWithSHA1__0.set "algorithm" (.obj Rfc8018.id_hmacWithSHA1)

/-- rfc8018.py:162 `algid_hmacWithSHA1['parameters'] = ...` -/
def algid_hmacWithSHA1 : Py.Proto :=
  Rfc8018.algid_hmacWithSHA1__1.set "parameters" (.obj (Py.univ.Null.call.callStr ""))

/-- rfc8018.py:165-166 `class PBKDF2_params(univ.Sequence)` -/
def PBKDF2_params__0 : Py.Obj :=
  Py.univ.Sequence

/-- rfc8018.py:168-178 `PBKDF2_params.componentType = ...` -/
def PBKDF2_params : Py.Obj :=
  Rfc8018.PBKDF2_params__0.setComponentType (Py.NamedTypes [
    Py.NamedType "salt" (Py.univ.Choice.call.setComponentType (Py.NamedTypes [
    Py.NamedType "specified" Py.univ.OctetString.call,
    Py.NamedType "otherSource" Rfc8018.AlgorithmIdentifier.call])),
    Py.NamedType "iterationCount" (Py.univ.Integer.call.addSubtypeSpec (Py.ValueRangeConstraint (.fin 1) Rfc8018.MAX)),
    Py.OptionalNamedType "keyLength" (Py.univ.Integer.call.addSubtypeSpec (Py.ValueRangeConstraint (.fin 1) Rfc8018.MAX)),
    Py.DefaultedNamedType "prf" Rfc8018.algid_hmacWithSHA1.toObj])

/-- rfc8018.py:183-184 `class RC2_CBC_Parameter(univ.Sequence)` -/
def RC2_CBC_Parameter__0 : Py.Obj :=
  Py.univ.Sequence

/-- rfc8018.py:186-190 `RC2_CBC_Parameter.componentType = ...` -/
def RC2_CBC_Parameter : Py.Obj :=
  Rfc8018.RC2_CBC_Parameter__0.setComponentType (Py.NamedTypes [
    Py.OptionalNamedType "rc2ParameterVersion" Py.univ.Integer.call,
    Py.NamedType "iv" (Py.univ.OctetString.call.addSubtypeSpec (Py.ValueSizeConstraint (.fin 8) (.fin 8)))])

/-- rfc8018.py:195-196 `class RC5_CBC_Parameters(univ.Sequence)` -/
def RC5_CBC_Parameters__0 : Py.Obj :=
  Py.univ.Sequence

/-- rfc8018.py:198-207 `RC5_CBC_Parameters.componentType = ...` -/
def RC5_CBC_Parameters : Py.Obj :=
  Rfc8018.RC5_CBC_Parameters__0.setComponentType (Py.NamedTypes [
    Py.NamedType "version" ((Py.univ.Integer.call.setNamedValues (Py.NamedValues [("v1_0", 16)])).addSubtypeSpec (Py.SingleValueConstraint [(.int 16)])),
    Py.NamedType "rounds" (Py.univ.Integer.call.addSubtypeSpec (Py.ValueRangeConstraint (.fin 8) (.fin 127))),
    Py.NamedType "blockSizeInBits" (Py.univ.Integer.call.addSubtypeSpec (Py.SingleValueConstraint [(.int 64), (.int 128)])),
    Py.OptionalNamedType "iv" Py.univ.OctetString.call])

/-- rfc8018.py:212-213 `class AES_IV(univ.OctetString)` -/
def AES_IV__1 : Py.Obj :=
  Py.univ.OctetString

/-- rfc8018.py:215 `AES_IV.subtypeSpec = ...` -/
def AES_IV : Py.Obj :=
  Rfc8018.AES_IV__1.setSubtypeSpec (Py.ValueSizeConstraint (.fin 16) (.fin 16))

/-- rfc8018.py:220-221 `class DES_IV(univ.OctetString)` -/
def DES_IV__0 : Py.Obj :=
  Py.univ.OctetString

/-- rfc8018.py:223 `DES_IV.subtypeSpec = ...` -/
def DES_IV : Py.Obj :=
  Rfc8018.DES_IV__0.setSubtypeSpec (Py.ValueSizeConstraint (.fin 8) (.fin 8))

/-- rfc8018.py:228-258 -/
def _algorithmIdentifierMapUpdate : Py.Entries :=
  [(Rfc8018.id_hmacWithSHA1.value, Py.univ.Null.call.ty),
    (Rfc8018.id_hmacWithSHA224.value, Py.univ.Null.call.ty),
    (Rfc8018.id_hmacWithSHA256.value, Py.univ.Null.call.ty),
    (Rfc8018.id_hmacWithSHA384.value, Py.univ.Null.call.ty),
    (Rfc8018.id_hmacWithSHA512.value, Py.univ.Null.call.ty),
    (Rfc8018.id_hmacWithSHA512_224.value, Py.univ.Null.call.ty),
    (Rfc8018.id_hmacWithSHA512_256.value, Py.univ.Null.call.ty),
    (Rfc8018.pbeWithMD2AndDES_CBC.value, Rfc8018.PBEParameter.call.ty),
    (Rfc8018.pbeWithMD2AndRC2_CBC.value, Rfc8018.PBEParameter.call.ty),
    (Rfc8018.pbeWithMD5AndDES_CBC.value, Rfc8018.PBEParameter.call.ty),
    (Rfc8018.pbeWithMD5AndRC2_CBC.value, Rfc8018.PBEParameter.call.ty),
    (Rfc8018.pbeWithSHA1AndDES_CBC.value, Rfc8018.PBEParameter.call.ty),
    (Rfc8018.pbeWithSHA1AndRC2_CBC.value, Rfc8018.PBEParameter.call.ty),
    (Rfc8018.id_PBES2.value, Rfc8018.PBES2_params.call.ty),
    (Rfc8018.id_PBKDF2.value, Rfc8018.PBKDF2_params.call.ty),
    (Rfc8018.id_PBMAC1.value, Rfc8018.PBMAC1_params.call.ty),
    (Rfc8018.desCBC.value, Rfc8018.DES_IV.call.ty),
    (Rfc8018.des_EDE3_CBC.value, Rfc8018.DES_IV.call.ty),
    (Rfc8018.rc2CBC.value, Rfc8018.RC2_CBC_Parameter.call.ty),
    (Rfc8018.rc5_CBC_PAD.value, Rfc8018.RC5_CBC_Parameters.call.ty),
    (Rfc8018.aes128_CBC_PAD.value, Rfc8018.AES_IV.call.ty),
    (Rfc8018.aes192_CBC_PAD.value, Rfc8018.AES_IV.call.ty),
    (Rfc8018.aes256_CBC_PAD.value, Rfc8018.AES_IV.call.ty)]

/-- Modules of this package imported by rfc8018.py, in textual order. -/
def imports : List Py.Ident :=
  [(Py.mod 18 "rfc3565"), (Py.mod 15 "rfc5280")]

/-- Dictionary operations executed when rfc8018.py is imported, in program order. -/
def effects : List Py.Effect :=
  [.create (Py.map 135 "rfc8018._algorithmIdentifierMapUpdate") Rfc8018._algorithmIdentifierMapUpdate /- rfc8018.py:228-258 -/,
   .update (Py.map 3 "rfc5280.algorithmIdentifierMap") Rfc8018._algorithmIdentifierMapUpdate /- rfc8018.py:260 -/]

/-- ASN.1 types rfc8018.py binds at module level (final version of each name), plus nested classes. -/
def classes : List (String × Py.Obj) :=
  [("rfc8018.AES_IV", Rfc8018.AES_IV),
   ("rfc8018.AlgorithmIdentifier", Rfc8018.AlgorithmIdentifier),
   ("rfc8018.PBEParameter", Rfc8018.PBEParameter),
   ("rfc8018.PBES2_params", Rfc8018.PBES2_params),
   ("rfc8018.PBMAC1_params", Rfc8018.PBMAC1_params),
   ("rfc8018.PBKDF2_params", Rfc8018.PBKDF2_params),
   ("rfc8018.RC2_CBC_Parameter", Rfc8018.RC2_CBC_Parameter),
   ("rfc8018.RC5_CBC_Parameters", Rfc8018.RC5_CBC_Parameters),
   ("rfc8018.DES_IV", Rfc8018.DES_IV)]

/-- pyasn1 instances rfc8018.py binds at module level. -/
def objects : List (String × Py.Obj) :=
  [("rfc8018.nistAlgorithms", Rfc8018.nistAlgorithms),
   ("rfc8018.aes", Rfc8018.aes),
   ("rfc8018.oiw", Rfc8018.oiw),
   ("rfc8018.rsadsi", Rfc8018.rsadsi),
   ("rfc8018.pkcs", Rfc8018.pkcs),
   ("rfc8018.digestAlgorithm", Rfc8018.digestAlgorithm),
   ("rfc8018.encryptionAlgorithm", Rfc8018.encryptionAlgorithm),
   ("rfc8018.pkcs_5", Rfc8018.pkcs_5),
   ("rfc8018.id_hmacWithSHA1", Rfc8018.id_hmacWithSHA1),
   ("rfc8018.id_hmacWithSHA224", Rfc8018.id_hmacWithSHA224),
   ("rfc8018.id_hmacWithSHA256", Rfc8018.id_hmacWithSHA256),
   ("rfc8018.id_hmacWithSHA384", Rfc8018.id_hmacWithSHA384),
   ("rfc8018.id_hmacWithSHA512", Rfc8018.id_hmacWithSHA512),
   ("rfc8018.id_hmacWithSHA512_224", Rfc8018.id_hmacWithSHA512_224),
   ("rfc8018.id_hmacWithSHA512_256", Rfc8018.id_hmacWithSHA512_256),
   ("rfc8018.pbeWithMD2AndDES_CBC", Rfc8018.pbeWithMD2AndDES_CBC),
   ("rfc8018.pbeWithMD2AndRC2_CBC", Rfc8018.pbeWithMD2AndRC2_CBC),
   ("rfc8018.pbeWithMD5AndDES_CBC", Rfc8018.pbeWithMD5AndDES_CBC),
   ("rfc8018.pbeWithMD5AndRC2_CBC", Rfc8018.pbeWithMD5AndRC2_CBC),
   ("rfc8018.pbeWithSHA1AndDES_CBC", Rfc8018.pbeWithSHA1AndDES_CBC),
   ("rfc8018.pbeWithSHA1AndRC2_CBC", Rfc8018.pbeWithSHA1AndRC2_CBC),
   ("rfc8018.desCBC", Rfc8018.desCBC),
   ("rfc8018.des_EDE3_CBC", Rfc8018.des_EDE3_CBC),
   ("rfc8018.rc2CBC", Rfc8018.rc2CBC),
   ("rfc8018.rc5_CBC_PAD", Rfc8018.rc5_CBC_PAD),
   ("rfc8018.aes128_CBC_PAD", Rfc8018.aes128_CBC_PAD),
   ("rfc8018.aes192_CBC_PAD", Rfc8018.aes192_CBC_PAD),
   ("rfc8018.aes256_CBC_PAD", Rfc8018.aes256_CBC_PAD),
   ("rfc8018.id_PBES2", Rfc8018.id_PBES2),
   ("rfc8018.id_PBMAC1", Rfc8018.id_PBMAC1),
   ("rfc8018.id_PBKDF2", Rfc8018.id_PBKDF2)]

/-- pyasn1 instances rfc8018.py fills in by item assignment. -/
def protos : List (String × Py.Proto) :=
  [("rfc8018.algid_hmacWithSHA1", Rfc8018.algid_hmacWithSHA1)]

/-- Every place of rfc8018.py that instantiates a class of the package: where, the class as it is
at that point, and the class as it is when the import has finished. -/
def snapshots : List Py.Snapshot :=
  [⟨"rfc8018.py:136", Rfc8018.AlgorithmIdentifier, Rfc8018.AlgorithmIdentifier⟩,
   ⟨"rfc8018.py:137", Rfc8018.AlgorithmIdentifier, Rfc8018.AlgorithmIdentifier⟩,
   ⟨"rfc8018.py:150", Rfc8018.AlgorithmIdentifier, Rfc8018.AlgorithmIdentifier⟩,
   ⟨"rfc8018.py:151", Rfc8018.AlgorithmIdentifier, Rfc8018.AlgorithmIdentifier⟩,
   ⟨"rfc8018.py:160", Rfc8018.AlgorithmIdentifier, Rfc8018.AlgorithmIdentifier⟩,
   ⟨"rfc8018.py:171", Rfc8018.AlgorithmIdentifier, Rfc8018.AlgorithmIdentifier⟩,
   ⟨"rfc8018.py:238", Rfc8018.PBEParameter, Rfc8018.PBEParameter⟩,
   ⟨"rfc8018.py:239", Rfc8018.PBEParameter, Rfc8018.PBEParameter⟩,
   ⟨"rfc8018.py:240", Rfc8018.PBEParameter, Rfc8018.PBEParameter⟩,
   ⟨"rfc8018.py:241", Rfc8018.PBEParameter, Rfc8018.PBEParameter⟩,
   ⟨"rfc8018.py:242", Rfc8018.PBEParameter, Rfc8018.PBEParameter⟩,
   ⟨"rfc8018.py:243", Rfc8018.PBEParameter, Rfc8018.PBEParameter⟩,
   ⟨"rfc8018.py:245", Rfc8018.PBES2_params, Rfc8018.PBES2_params⟩,
   ⟨"rfc8018.py:247", Rfc8018.PBKDF2_params, Rfc8018.PBKDF2_params⟩,
   ⟨"rfc8018.py:249", Rfc8018.PBMAC1_params, Rfc8018.PBMAC1_params⟩,
   ⟨"rfc8018.py:251", Rfc8018.DES_IV, Rfc8018.DES_IV⟩,
   ⟨"rfc8018.py:252", Rfc8018.DES_IV, Rfc8018.DES_IV⟩,
   ⟨"rfc8018.py:253", Rfc8018.RC2_CBC_Parameter, Rfc8018.RC2_CBC_Parameter⟩,
   ⟨"rfc8018.py:254", Rfc8018.RC5_CBC_Parameters, Rfc8018.RC5_CBC_Parameters⟩,
   ⟨"rfc8018.py:255", Rfc8018.AES_IV, Rfc8018.AES_IV⟩,
   ⟨"rfc8018.py:256", Rfc8018.AES_IV, Rfc8018.AES_IV⟩,
   ⟨"rfc8018.py:257", Rfc8018.AES_IV, Rfc8018.AES_IV⟩]

/-- Functions rfc8018.py defines. -/
def builders : List (String × (List Py.OidArg → Py.Obj)) :=
  [("rfc8018._OID", Rfc8018._OID)]

def asModule : Py.Module :=
  { id := (Py.mod 19 "rfc8018"), imports := imports, effects := effects, classes := classes, objects := objects, protos := protos, snapshots := snapshots, builders := builders }

end Rfc8018
end Verif
