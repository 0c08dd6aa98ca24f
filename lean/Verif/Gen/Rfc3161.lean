import Verif.Py.Obj
import Verif.Gen.Rfc4210
import Verif.Gen.Rfc5280
import Verif.Gen.Rfc5652

/-! Transcription of /repo/pyasn1_modules/rfc3161.py (generated by tools/gen.py). -/

namespace Verif
namespace Rfc3161

/-- rfc3161.py:27 alias of `rfc5280.Extensions` -/
def Extensions : Py.Obj :=
  Rfc5280.Extensions

/-- rfc3161.py:29 alias of `rfc5280.AlgorithmIdentifier` -/
def AlgorithmIdentifier : Py.Obj :=
  Rfc5280.AlgorithmIdentifier

/-- rfc3161.py:31 alias of `rfc5280.GeneralName` -/
def GeneralName : Py.Obj :=
  Rfc5280.GeneralName

/-- rfc3161.py:33 alias of `rfc5652.ContentInfo` -/
def ContentInfo : Py.Obj :=
  Rfc5652.ContentInfo

/-- rfc3161.py:35 alias of `rfc4210.PKIFreeText` -/
def PKIFreeText : Py.Obj :=
  Rfc4210.PKIFreeText

/-- rfc3161.py:38 -/
def id_ct_TSTInfo : Py.Obj :=
  (Py.univ.ObjectIdentifier.call.callArcs [1, 2, 840, 113549, 1, 9, 16, 1, 4])

/-- rfc3161.py:41-42 `class Accuracy(univ.Sequence)` -/
def Accuracy__0 : Py.Obj :=
  Py.univ.Sequence

/-- rfc3161.py:44-48 `Accuracy.componentType = ...` -/
def Accuracy : Py.Obj :=
  Rfc3161.Accuracy__0.setComponentType (Py.NamedTypes [
    Py.OptionalNamedType "seconds" Py.univ.Integer.call,
    Py.OptionalNamedType "millis" ((Py.univ.Integer.call.addSubtypeSpec (Py.ValueRangeConstraint (.fin 1) (.fin 999))).implicitTag (Py.Tag .context false 0)),
    Py.OptionalNamedType "micros" ((Py.univ.Integer.call.addSubtypeSpec (Py.ValueRangeConstraint (.fin 1) (.fin 999))).implicitTag (Py.Tag .context false 1))])

/-- rfc3161.py:51-52 `class MessageImprint(univ.Sequence)` -/
def MessageImprint__0 : Py.Obj :=
  Py.univ.Sequence

/-- rfc3161.py:54-57 `MessageImprint.componentType = ...` -/
def MessageImprint : Py.Obj :=
  Rfc3161.MessageImprint__0.setComponentType (Py.NamedTypes [
    Py.NamedType "hashAlgorithm" Rfc3161.AlgorithmIdentifier.call,
    Py.NamedType "hashedMessage" Py.univ.OctetString.call])

/-- rfc3161.py:60-61 `class PKIFailureInfo(univ.BitString)` -/
def PKIFailureInfo__0 : Py.Obj :=
  Py.univ.BitString

/-- rfc3161.py:63-72 `PKIFailureInfo.namedValues = ...` -/
def PKIFailureInfo : Py.Obj :=
  Rfc3161.PKIFailureInfo__0.setNamedValues (Py.NamedValues [("badAlg", 0), ("badRequest", 2), ("badDataFormat", 5), ("timeNotAvailable", 14), ("unacceptedPolicy", 15), ("unacceptedExtension", 16), ("addInfoNotAvailable", 17), ("systemFailure", 25)])

/-- rfc3161.py:75-76 `class PKIStatus(univ.Integer)` -/
def PKIStatus__0 : Py.Obj :=
  Py.univ.Integer

/-- rfc3161.py:78-85 `PKIStatus.namedValues = ...` -/
def PKIStatus : Py.Obj :=
  Rfc3161.PKIStatus__0.setNamedValues (Py.NamedValues [("granted", 0), ("grantedWithMods", 1), ("rejection", 2), ("waiting", 3), ("revocationWarning", 4), ("revocationNotification", 5)])

/-- rfc3161.py:88-89 `class PKIStatusInfo(univ.Sequence)` -/
def PKIStatusInfo__0 : Py.Obj :=
  Py.univ.Sequence

/-- rfc3161.py:91-95 `PKIStatusInfo.componentType = ...` -/
def PKIStatusInfo : Py.Obj :=
  Rfc3161.PKIStatusInfo__0.setComponentType (Py.NamedTypes [
    Py.NamedType "status" Rfc3161.PKIStatus.call,
    Py.OptionalNamedType "statusString" Rfc3161.PKIFreeText.call,
    Py.OptionalNamedType "failInfo" Rfc3161.PKIFailureInfo.call])

/-- rfc3161.py:98-99 `class TSAPolicyId(univ.ObjectIdentifier)` -/
def TSAPolicyId : Py.Obj :=
  Py.univ.ObjectIdentifier

/-- rfc3161.py:102-103 `class TSTInfo(univ.Sequence)` -/
def TSTInfo__0 : Py.Obj :=
  Py.univ.Sequence

/-- rfc3161.py:105-116 `TSTInfo.componentType = ...` -/
def TSTInfo : Py.Obj :=
  Rfc3161.TSTInfo__0.setComponentType (Py.NamedTypes [
    Py.NamedType "version" (Py.univ.Integer.call.setNamedValues (Py.NamedValues [("v1", 1)])),
    Py.NamedType "policy" Rfc3161.TSAPolicyId.call,
    Py.NamedType "messageImprint" Rfc3161.MessageImprint.call,
    Py.NamedType "serialNumber" Py.univ.Integer.call,
    Py.NamedType "genTime" Py.useful.GeneralizedTime.call,
    Py.OptionalNamedType "accuracy" Rfc3161.Accuracy.call,
    Py.DefaultedNamedType "ordering" (Py.univ.Boolean.call.callInt 0),
    Py.OptionalNamedType "nonce" Py.univ.Integer.call,
    Py.OptionalNamedType "tsa" (Rfc3161.GeneralName.call.implicitTag (Py.Tag .context false 0)),
    Py.OptionalNamedType "extensions" (Rfc3161.Extensions.call.implicitTag (Py.Tag .context false 1))])

/-- rfc3161.py:119-120 `class TimeStampReq(univ.Sequence)` -/
def TimeStampReq__0 : Py.Obj :=
  Py.univ.Sequence

/-- rfc3161.py:122-129 `TimeStampReq.componentType = ...` -/
def TimeStampReq : Py.Obj :=
  Rfc3161.TimeStampReq__0.setComponentType (Py.NamedTypes [
    Py.NamedType "version" (Py.univ.Integer.call.setNamedValues (Py.NamedValues [("v1", 1)])),
    Py.NamedType "messageImprint" Rfc3161.MessageImprint.call,
    Py.OptionalNamedType "reqPolicy" Rfc3161.TSAPolicyId.call,
    Py.OptionalNamedType "nonce" Py.univ.Integer.call,
    Py.DefaultedNamedType "certReq" (Py.univ.Boolean.call.callInt 0),
    Py.OptionalNamedType "extensions" (Rfc3161.Extensions.call.implicitTag (Py.Tag .context false 0))])

/-- rfc3161.py:132-133 `class TimeStampToken(ContentInfo)` -/
def TimeStampToken : Py.Obj :=
  Rfc3161.ContentInfo

/-- rfc3161.py:136-137 `class TimeStampResp(univ.Sequence)` -/
def TimeStampResp__0 : Py.Obj :=
  Py.univ.Sequence

/-- rfc3161.py:139-142 `TimeStampResp.componentType = ...` -/
def TimeStampResp : Py.Obj :=
  Rfc3161.TimeStampResp__0.setComponentType (Py.NamedTypes [
    Py.NamedType "status" Rfc3161.PKIStatusInfo.call,
    Py.OptionalNamedType "timeStampToken" Rfc3161.TimeStampToken.call])

/-- Modules of this package imported by rfc3161.py, in textual order. -/
def imports : List Py.Ident :=
  [(Py.mod 30 "rfc4210"), (Py.mod 15 "rfc5280"), (Py.mod 16 "rfc5652")]

/-- Dictionary operations executed when rfc3161.py is imported, in program order. -/
def effects : List Py.Effect :=
  []

/-- ASN.1 types rfc3161.py binds at module level (final version of each name), plus nested classes. -/
def classes : List (String × Py.Obj) :=
  [("rfc3161.Extensions", Rfc3161.Extensions),
   ("rfc3161.AlgorithmIdentifier", Rfc3161.AlgorithmIdentifier),
   ("rfc3161.GeneralName", Rfc3161.GeneralName),
   ("rfc3161.ContentInfo", Rfc3161.ContentInfo),
   ("rfc3161.PKIFreeText", Rfc3161.PKIFreeText),
   ("rfc3161.Accuracy", Rfc3161.Accuracy),
   ("rfc3161.MessageImprint", Rfc3161.MessageImprint),
   ("rfc3161.PKIFailureInfo", Rfc3161.PKIFailureInfo),
   ("rfc3161.PKIStatus", Rfc3161.PKIStatus),
   ("rfc3161.PKIStatusInfo", Rfc3161.PKIStatusInfo),
   ("rfc3161.TSAPolicyId", Rfc3161.TSAPolicyId),
   ("rfc3161.TSTInfo", Rfc3161.TSTInfo),
   ("rfc3161.TimeStampReq", Rfc3161.TimeStampReq),
   ("rfc3161.TimeStampToken", Rfc3161.TimeStampToken),
   ("rfc3161.TimeStampResp", Rfc3161.TimeStampResp)]

/-- pyasn1 instances rfc3161.py binds at module level. -/
def objects : List (String × Py.Obj) :=
  [("rfc3161.id_ct_TSTInfo", Rfc3161.id_ct_TSTInfo)]

/-- pyasn1 instances rfc3161.py fills in by item assignment. -/
def protos : List (String × Py.Proto) :=
  []

/-- Every place of rfc3161.py that instantiates a class of the package: where, the class as it is
at that point, and the class as it is when the import has finished. -/
def snapshots : List Py.Snapshot :=
  [⟨"rfc3161.py:55", Rfc3161.AlgorithmIdentifier, Rfc3161.AlgorithmIdentifier⟩,
   ⟨"rfc3161.py:92", Rfc3161.PKIStatus, Rfc3161.PKIStatus⟩,
   ⟨"rfc3161.py:93", Rfc3161.PKIFreeText, Rfc3161.PKIFreeText⟩,
   ⟨"rfc3161.py:94", Rfc3161.PKIFailureInfo, Rfc3161.PKIFailureInfo⟩,
   ⟨"rfc3161.py:107", Rfc3161.TSAPolicyId, Rfc3161.TSAPolicyId⟩,
   ⟨"rfc3161.py:108", Rfc3161.MessageImprint, Rfc3161.MessageImprint⟩,
   ⟨"rfc3161.py:111", Rfc3161.Accuracy, Rfc3161.Accuracy⟩,
   ⟨"rfc3161.py:114", Rfc3161.GeneralName, Rfc3161.GeneralName⟩,
   ⟨"rfc3161.py:115", Rfc3161.Extensions, Rfc3161.Extensions⟩,
   ⟨"rfc3161.py:124", Rfc3161.MessageImprint, Rfc3161.MessageImprint⟩,
   ⟨"rfc3161.py:125", Rfc3161.TSAPolicyId, Rfc3161.TSAPolicyId⟩,
   ⟨"rfc3161.py:128", Rfc3161.Extensions, Rfc3161.Extensions⟩,
   ⟨"rfc3161.py:140", Rfc3161.PKIStatusInfo, Rfc3161.PKIStatusInfo⟩,
   ⟨"rfc3161.py:141", Rfc3161.TimeStampToken, Rfc3161.TimeStampToken⟩]

/-- Functions rfc3161.py defines. -/
def builders : List (String × (List Py.OidArg → Py.Obj)) :=
  []

def asModule : Py.Module :=
  { id := (Py.mod 31 "rfc3161"), imports := imports, effects := effects, classes := classes, objects := objects, protos := protos, snapshots := snapshots, builders := builders }

end Rfc3161
end Verif
