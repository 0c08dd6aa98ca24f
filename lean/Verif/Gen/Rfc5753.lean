import Verif.Py.Obj
import Verif.Gen.Rfc5280
import Verif.Gen.Rfc5480
import Verif.Gen.Rfc5652
import Verif.Gen.Rfc5751
import Verif.Gen.Rfc8018

/-! Transcription of /repo/pyasn1_modules/rfc5753.py (generated by tools/gen.py). -/

namespace Verif
namespace Rfc5753

/-- rfc5753.py:26 alias of `rfc5280.AlgorithmIdentifier` -/
def AlgorithmIdentifier : Py.Obj :=
  Rfc5280.AlgorithmIdentifier

/-- rfc5753.py:31 alias of `rfc5652.OriginatorPublicKey` -/
def OriginatorPublicKey : Py.Obj :=
  Rfc5652.OriginatorPublicKey

/-- rfc5753.py:33 alias of `rfc5652.UserKeyingMaterial` -/
def UserKeyingMaterial : Py.Obj :=
  Rfc5652.UserKeyingMaterial

/-- rfc5753.py:38 alias of `rfc5480.ECDSA_Sig_Value` -/
def ECDSA_Sig_Value : Py.Obj :=
  Rfc5480.ECDSA_Sig_Value

/-- rfc5753.py:40 alias of `rfc5480.ECParameters` -/
def ECParameters : Py.Obj :=
  Rfc5480.ECParameters

/-- rfc5753.py:42 alias of `rfc5480.ECPoint` -/
def ECPoint : Py.Obj :=
  Rfc5480.ECPoint

/-- rfc5753.py:44 alias of `rfc5480.id_ecPublicKey` -/
def id_ecPublicKey : Py.Obj :=
  Rfc5480.id_ecPublicKey

/-- rfc5753.py:49 alias of `rfc8018.id_hmacWithSHA224` -/
def id_hmacWithSHA224 : Py.Obj :=
  Rfc8018.id_hmacWithSHA224

/-- rfc5753.py:51 alias of `rfc8018.id_hmacWithSHA256` -/
def id_hmacWithSHA256 : Py.Obj :=
  Rfc8018.id_hmacWithSHA256

/-- rfc5753.py:53 alias of `rfc8018.id_hmacWithSHA384` -/
def id_hmacWithSHA384 : Py.Obj :=
  Rfc8018.id_hmacWithSHA384

/-- rfc5753.py:55 alias of `rfc8018.id_hmacWithSHA512` -/
def id_hmacWithSHA512 : Py.Obj :=
  Rfc8018.id_hmacWithSHA512

/-- rfc5753.py:60 -/
def x9_63_scheme : Py.Obj :=
  (Py.univ.ObjectIdentifier.call.callArcs [1, 3, 133, 16, 840, 63, 0])

/-- rfc5753.py:62 -/
def secg_scheme : Py.Obj :=
  (Py.univ.ObjectIdentifier.call.callArcs [1, 3, 132, 1])

/-- rfc5753.py:67 -/
def dhSinglePass_cofactorDH_sha1kdf_scheme : Py.Obj :=
  (Rfc5753.x9_63_scheme.addArcs [3])

/-- rfc5753.py:69 -/
def dhSinglePass_cofactorDH_sha224kdf_scheme : Py.Obj :=
  (Rfc5753.secg_scheme.addArcs [14, 0])

/-- rfc5753.py:71 -/
def dhSinglePass_cofactorDH_sha256kdf_scheme : Py.Obj :=
  (Rfc5753.secg_scheme.addArcs [14, 1])

/-- rfc5753.py:73 -/
def dhSinglePass_cofactorDH_sha384kdf_scheme : Py.Obj :=
  (Rfc5753.secg_scheme.addArcs [14, 2])

/-- rfc5753.py:75 -/
def dhSinglePass_cofactorDH_sha512kdf_scheme : Py.Obj :=
  (Rfc5753.secg_scheme.addArcs [14, 3])

/-- rfc5753.py:77 -/
def dhSinglePass_stdDH_sha1kdf_scheme : Py.Obj :=
  (Rfc5753.x9_63_scheme.addArcs [2])

/-- rfc5753.py:79 -/
def dhSinglePass_stdDH_sha224kdf_scheme : Py.Obj :=
  (Rfc5753.secg_scheme.addArcs [11, 0])

/-- rfc5753.py:81 -/
def dhSinglePass_stdDH_sha256kdf_scheme : Py.Obj :=
  (Rfc5753.secg_scheme.addArcs [11, 1])

/-- rfc5753.py:83 -/
def dhSinglePass_stdDH_sha384kdf_scheme : Py.Obj :=
  (Rfc5753.secg_scheme.addArcs [11, 2])

/-- rfc5753.py:85 -/
def dhSinglePass_stdDH_sha512kdf_scheme : Py.Obj :=
  (Rfc5753.secg_scheme.addArcs [11, 3])

/-- rfc5753.py:87 -/
def mqvSinglePass_sha1kdf_scheme : Py.Obj :=
  (Rfc5753.x9_63_scheme.addArcs [16])

/-- rfc5753.py:89 -/
def mqvSinglePass_sha224kdf_scheme : Py.Obj :=
  (Rfc5753.secg_scheme.addArcs [15, 0])

/-- rfc5753.py:91 -/
def mqvSinglePass_sha256kdf_scheme : Py.Obj :=
  (Rfc5753.secg_scheme.addArcs [15, 1])

/-- rfc5753.py:93 -/
def mqvSinglePass_sha384kdf_scheme : Py.Obj :=
  (Rfc5753.secg_scheme.addArcs [15, 2])

/-- rfc5753.py:95 -/
def mqvSinglePass_sha512kdf_scheme : Py.Obj :=
  (Rfc5753.secg_scheme.addArcs [15, 3])

/-- rfc5753.py:100-102 `class IV(univ.OctetString)` -/
def IV : Py.Obj :=
  Py.univ.OctetString

/-- rfc5753.py:105-106 `class CBCParameter(IV)` -/
def CBCParameter : Py.Obj :=
  Rfc5753.IV

/-- rfc5753.py:109-110 `class KeyWrapAlgorithm(AlgorithmIdentifier)` -/
def KeyWrapAlgorithm : Py.Obj :=
  Rfc5753.AlgorithmIdentifier

/-- rfc5753.py:113-122 `class ECC_CMS_SharedInfo(univ.Sequence)` -/
def ECC_CMS_SharedInfo : Py.Obj :=
  Py.univ.Sequence.setComponentType (Py.NamedTypes [
    Py.NamedType "keyInfo" Rfc5753.KeyWrapAlgorithm.call,
    Py.OptionalNamedType "entityUInfo" (Py.univ.OctetString.call.explicitTag (Py.Tag .context false 0)),
    Py.NamedType "suppPubInfo" (Py.univ.OctetString.call.explicitTag (Py.Tag .context false 2))])

/-- rfc5753.py:125-131 `class MQVuserKeyingMaterial(univ.Sequence)` -/
def MQVuserKeyingMaterial : Py.Obj :=
  Py.univ.Sequence.setComponentType (Py.NamedTypes [
    Py.NamedType "ephemeralPublicKey" Rfc5753.OriginatorPublicKey.call,
    Py.OptionalNamedType "addedukm" (Rfc5753.UserKeyingMaterial.call.explicitTag (Py.Tag .context false 0))])

/-- rfc5753.py:137-153 -/
def _algorithmIdentifierMapUpdate : Py.Entries :=
  [(Rfc5753.dhSinglePass_stdDH_sha1kdf_scheme.value, Rfc5753.KeyWrapAlgorithm.call.ty),
    (Rfc5753.dhSinglePass_stdDH_sha224kdf_scheme.value, Rfc5753.KeyWrapAlgorithm.call.ty),
    (Rfc5753.dhSinglePass_stdDH_sha256kdf_scheme.value, Rfc5753.KeyWrapAlgorithm.call.ty),
    (Rfc5753.dhSinglePass_stdDH_sha384kdf_scheme.value, Rfc5753.KeyWrapAlgorithm.call.ty),
    (Rfc5753.dhSinglePass_stdDH_sha512kdf_scheme.value, Rfc5753.KeyWrapAlgorithm.call.ty),
    (Rfc5753.dhSinglePass_cofactorDH_sha1kdf_scheme.value, Rfc5753.KeyWrapAlgorithm.call.ty),
    (Rfc5753.dhSinglePass_cofactorDH_sha224kdf_scheme.value, Rfc5753.KeyWrapAlgorithm.call.ty),
    (Rfc5753.dhSinglePass_cofactorDH_sha256kdf_scheme.value, Rfc5753.KeyWrapAlgorithm.call.ty),
    (Rfc5753.dhSinglePass_cofactorDH_sha384kdf_scheme.value, Rfc5753.KeyWrapAlgorithm.call.ty),
    (Rfc5753.dhSinglePass_cofactorDH_sha512kdf_scheme.value, Rfc5753.KeyWrapAlgorithm.call.ty),
    (Rfc5753.mqvSinglePass_sha1kdf_scheme.value, Rfc5753.KeyWrapAlgorithm.call.ty),
    (Rfc5753.mqvSinglePass_sha224kdf_scheme.value, Rfc5753.KeyWrapAlgorithm.call.ty),
    (Rfc5753.mqvSinglePass_sha256kdf_scheme.value, Rfc5753.KeyWrapAlgorithm.call.ty),
    (Rfc5753.mqvSinglePass_sha384kdf_scheme.value, Rfc5753.KeyWrapAlgorithm.call.ty),
    (Rfc5753.mqvSinglePass_sha512kdf_scheme.value, Rfc5753.KeyWrapAlgorithm.call.ty)]

/-- Modules of this package imported by rfc5753.py, in textual order. -/
def imports : List Py.Ident :=
  [(Py.mod 15 "rfc5280"), (Py.mod 34 "rfc5480"), (Py.mod 16 "rfc5652"), (Py.mod 20 "rfc5751"), (Py.mod 19 "rfc8018")]

/-- Dictionary operations executed when rfc5753.py is imported, in program order. -/
def effects : List Py.Effect :=
  [.create (Py.map 90 "rfc5753._algorithmIdentifierMapUpdate") Rfc5753._algorithmIdentifierMapUpdate /- rfc5753.py:137-153 -/,
   .update (Py.map 3 "rfc5280.algorithmIdentifierMap") Rfc5753._algorithmIdentifierMapUpdate /- rfc5753.py:155 -/,
   .update (Py.map 14 "rfc5751.smimeCapabilityMap") Rfc5753._algorithmIdentifierMapUpdate /- rfc5753.py:157 -/]

/-- ASN.1 types rfc5753.py binds at module level (final version of each name), plus nested classes. -/
def classes : List (String × Py.Obj) :=
  [("rfc5753.AlgorithmIdentifier", Rfc5753.AlgorithmIdentifier),
   ("rfc5753.OriginatorPublicKey", Rfc5753.OriginatorPublicKey),
   ("rfc5753.UserKeyingMaterial", Rfc5753.UserKeyingMaterial),
   ("rfc5753.ECDSA_Sig_Value", Rfc5753.ECDSA_Sig_Value),
   ("rfc5753.ECParameters", Rfc5753.ECParameters),
   ("rfc5753.ECPoint", Rfc5753.ECPoint),
   ("rfc5753.IV", Rfc5753.IV),
   ("rfc5753.CBCParameter", Rfc5753.CBCParameter),
   ("rfc5753.KeyWrapAlgorithm", Rfc5753.KeyWrapAlgorithm),
   ("rfc5753.ECC_CMS_SharedInfo", Rfc5753.ECC_CMS_SharedInfo),
   ("rfc5753.MQVuserKeyingMaterial", Rfc5753.MQVuserKeyingMaterial)]

/-- pyasn1 instances rfc5753.py binds at module level. -/
def objects : List (String × Py.Obj) :=
  [("rfc5753.id_ecPublicKey", Rfc5753.id_ecPublicKey),
   ("rfc5753.id_hmacWithSHA224", Rfc5753.id_hmacWithSHA224),
   ("rfc5753.id_hmacWithSHA256", Rfc5753.id_hmacWithSHA256),
   ("rfc5753.id_hmacWithSHA384", Rfc5753.id_hmacWithSHA384),
   ("rfc5753.id_hmacWithSHA512", Rfc5753.id_hmacWithSHA512),
   ("rfc5753.x9_63_scheme", Rfc5753.x9_63_scheme),
   ("rfc5753.secg_scheme", Rfc5753.secg_scheme),
   ("rfc5753.dhSinglePass_cofactorDH_sha1kdf_scheme", Rfc5753.dhSinglePass_cofactorDH_sha1kdf_scheme),
   ("rfc5753.dhSinglePass_cofactorDH_sha224kdf_scheme", Rfc5753.dhSinglePass_cofactorDH_sha224kdf_scheme),
   ("rfc5753.dhSinglePass_cofactorDH_sha256kdf_scheme", Rfc5753.dhSinglePass_cofactorDH_sha256kdf_scheme),
   ("rfc5753.dhSinglePass_cofactorDH_sha384kdf_scheme", Rfc5753.dhSinglePass_cofactorDH_sha384kdf_scheme),
   ("rfc5753.dhSinglePass_cofactorDH_sha512kdf_scheme", Rfc5753.dhSinglePass_cofactorDH_sha512kdf_scheme),
   ("rfc5753.dhSinglePass_stdDH_sha1kdf_scheme", Rfc5753.dhSinglePass_stdDH_sha1kdf_scheme),
   ("rfc5753.dhSinglePass_stdDH_sha224kdf_scheme", Rfc5753.dhSinglePass_stdDH_sha224kdf_scheme),
   ("rfc5753.dhSinglePass_stdDH_sha256kdf_scheme", Rfc5753.dhSinglePass_stdDH_sha256kdf_scheme),
   ("rfc5753.dhSinglePass_stdDH_sha384kdf_scheme", Rfc5753.dhSinglePass_stdDH_sha384kdf_scheme),
   ("rfc5753.dhSinglePass_stdDH_sha512kdf_scheme", Rfc5753.dhSinglePass_stdDH_sha512kdf_scheme),
   ("rfc5753.mqvSinglePass_sha1kdf_scheme", Rfc5753.mqvSinglePass_sha1kdf_scheme),
   ("rfc5753.mqvSinglePass_sha224kdf_scheme", Rfc5753.mqvSinglePass_sha224kdf_scheme),
   ("rfc5753.mqvSinglePass_sha256kdf_scheme", Rfc5753.mqvSinglePass_sha256kdf_scheme),
   ("rfc5753.mqvSinglePass_sha384kdf_scheme", Rfc5753.mqvSinglePass_sha384kdf_scheme),
   ("rfc5753.mqvSinglePass_sha512kdf_scheme", Rfc5753.mqvSinglePass_sha512kdf_scheme)]

/-- pyasn1 instances rfc5753.py fills in by item assignment. -/
def protos : List (String × Py.Proto) :=
  []

/-- Every place of rfc5753.py that instantiates a class of the package: where, the class as it is
at that point, and the class as it is when the import has finished. -/
def snapshots : List Py.Snapshot :=
  [⟨"rfc5753.py:115", Rfc5753.KeyWrapAlgorithm, Rfc5753.KeyWrapAlgorithm⟩,
   ⟨"rfc5753.py:127", Rfc5753.OriginatorPublicKey, Rfc5753.OriginatorPublicKey⟩,
   ⟨"rfc5753.py:129", Rfc5753.UserKeyingMaterial, Rfc5753.UserKeyingMaterial⟩,
   ⟨"rfc5753.py:138", Rfc5753.KeyWrapAlgorithm, Rfc5753.KeyWrapAlgorithm⟩,
   ⟨"rfc5753.py:139", Rfc5753.KeyWrapAlgorithm, Rfc5753.KeyWrapAlgorithm⟩,
   ⟨"rfc5753.py:140", Rfc5753.KeyWrapAlgorithm, Rfc5753.KeyWrapAlgorithm⟩,
   ⟨"rfc5753.py:141", Rfc5753.KeyWrapAlgorithm, Rfc5753.KeyWrapAlgorithm⟩,
   ⟨"rfc5753.py:142", Rfc5753.KeyWrapAlgorithm, Rfc5753.KeyWrapAlgorithm⟩,
   ⟨"rfc5753.py:143", Rfc5753.KeyWrapAlgorithm, Rfc5753.KeyWrapAlgorithm⟩,
   ⟨"rfc5753.py:144", Rfc5753.KeyWrapAlgorithm, Rfc5753.KeyWrapAlgorithm⟩,
   ⟨"rfc5753.py:145", Rfc5753.KeyWrapAlgorithm, Rfc5753.KeyWrapAlgorithm⟩,
   ⟨"rfc5753.py:146", Rfc5753.KeyWrapAlgorithm, Rfc5753.KeyWrapAlgorithm⟩,
   ⟨"rfc5753.py:147", Rfc5753.KeyWrapAlgorithm, Rfc5753.KeyWrapAlgorithm⟩,
   ⟨"rfc5753.py:148", Rfc5753.KeyWrapAlgorithm, Rfc5753.KeyWrapAlgorithm⟩,
   ⟨"rfc5753.py:149", Rfc5753.KeyWrapAlgorithm, Rfc5753.KeyWrapAlgorithm⟩,
   ⟨"rfc5753.py:150", Rfc5753.KeyWrapAlgorithm, Rfc5753.KeyWrapAlgorithm⟩,
   ⟨"rfc5753.py:151", Rfc5753.KeyWrapAlgorithm, Rfc5753.KeyWrapAlgorithm⟩,
   ⟨"rfc5753.py:152", Rfc5753.KeyWrapAlgorithm, Rfc5753.KeyWrapAlgorithm⟩]

/-- Functions rfc5753.py defines. -/
def builders : List (String × (List Py.OidArg → Py.Obj)) :=
  []

def asModule : Py.Module :=
  { id := (Py.mod 35 "rfc5753"), imports := imports, effects := effects, classes := classes, objects := objects, protos := protos, snapshots := snapshots, builders := builders }

end Rfc5753
end Verif
