import Verif.Py.Obj
import Verif.Gen.Rfc1155

/-! Transcription of /repo/pyasn1_modules/rfc1157.py (generated by tools/gen.py). -/

namespace Verif
namespace Rfc1157

/-- rfc1157.py:23-27 `class Version(univ.Integer)` -/
def Version : Py.Obj :=
  (Py.univ.Integer.setNamedValues (Py.NamedValues [("version-1", 0)])).setDefaultValue 0

/-- rfc1157.py:30-31 `class Community(univ.OctetString)` -/
def Community : Py.Obj :=
  Py.univ.OctetString

/-- rfc1157.py:34-35 `class RequestID(univ.Integer)` -/
def RequestID : Py.Obj :=
  Py.univ.Integer

/-- rfc1157.py:38-46 `class ErrorStatus(univ.Integer)` -/
def ErrorStatus : Py.Obj :=
  Py.univ.Integer.setNamedValues (Py.NamedValues [("noError", 0), ("tooBig", 1), ("noSuchName", 2), ("badValue", 3), ("readOnly", 4), ("genErr", 5)])

/-- rfc1157.py:49-50 `class ErrorIndex(univ.Integer)` -/
def ErrorIndex : Py.Obj :=
  Py.univ.Integer

/-- rfc1157.py:53-57 `class VarBind(univ.Sequence)` -/
def VarBind : Py.Obj :=
  Py.univ.Sequence.setComponentType (Py.NamedTypes [
    Py.NamedType "name" Rfc1155.ObjectName.call,
    Py.NamedType "value" Rfc1155.ObjectSyntax.call])

/-- rfc1157.py:60-61 `class VarBindList(univ.SequenceOf)` -/
def VarBindList : Py.Obj :=
  Py.univ.SequenceOf.setComponentTypeOf Rfc1157.VarBind.call

/-- rfc1157.py:64-70 `class _RequestBase(univ.Sequence)` -/
def _RequestBase : Py.Obj :=
  Py.univ.Sequence.setComponentType (Py.NamedTypes [
    Py.NamedType "request-id" Rfc1157.RequestID.call,
    Py.NamedType "error-status" Rfc1157.ErrorStatus.call,
    Py.NamedType "error-index" Rfc1157.ErrorIndex.call,
    Py.NamedType "variable-bindings" Rfc1157.VarBindList.call])

/-- rfc1157.py:73-76 `class GetRequestPDU(_RequestBase)` -/
def GetRequestPDU : Py.Obj :=
  Rfc1157._RequestBase.setTagSet (Rfc1157._RequestBase.tagSet.tagImplicitly (Py.Tag .context true 0))

/-- rfc1157.py:79-82 `class GetNextRequestPDU(_RequestBase)` -/
def GetNextRequestPDU : Py.Obj :=
  Rfc1157._RequestBase.setTagSet (Rfc1157._RequestBase.tagSet.tagImplicitly (Py.Tag .context true 1))

/-- rfc1157.py:85-88 `class GetResponsePDU(_RequestBase)` -/
def GetResponsePDU : Py.Obj :=
  Rfc1157._RequestBase.setTagSet (Rfc1157._RequestBase.tagSet.tagImplicitly (Py.Tag .context true 2))

/-- rfc1157.py:91-94 `class SetRequestPDU(_RequestBase)` -/
def SetRequestPDU : Py.Obj :=
  Rfc1157._RequestBase.setTagSet (Rfc1157._RequestBase.tagSet.tagImplicitly (Py.Tag .context true 3))

/-- rfc1157.py:97-108 `class TrapPDU(univ.Sequence)` -/
def TrapPDU : Py.Obj :=
  Py.univ.Sequence.setComponentType (Py.NamedTypes [
    Py.NamedType "enterprise" Py.univ.ObjectIdentifier.call,
    Py.NamedType "agent-addr" Rfc1155.NetworkAddress.call,
    Py.NamedType "generic-trap" (Py.univ.Integer.call.setNamedValues (Py.NamedValues [("coldStart", 0), ("warmStart", 1), ("linkDown", 2), ("linkUp", 3), ("authenticationFailure", 4), ("egpNeighborLoss", 5), ("enterpriseSpecific", 6)])),
    Py.NamedType "specific-trap" Py.univ.Integer.call,
    Py.NamedType "time-stamp" Rfc1155.TimeTicks.call,
    Py.NamedType "variable-bindings" Rfc1157.VarBindList.call])

/-- rfc1157.py:111-118 `class Pdus(univ.Choice)` -/
def Pdus : Py.Obj :=
  Py.univ.Choice.setComponentType (Py.NamedTypes [
    Py.NamedType "get-request" Rfc1157.GetRequestPDU.call,
    Py.NamedType "get-next-request" Rfc1157.GetNextRequestPDU.call,
    Py.NamedType "get-response" Rfc1157.GetResponsePDU.call,
    Py.NamedType "set-request" Rfc1157.SetRequestPDU.call,
    Py.NamedType "trap" Rfc1157.TrapPDU.call])

/-- rfc1157.py:121-126 `class Message(univ.Sequence)` -/
def Message : Py.Obj :=
  Py.univ.Sequence.setComponentType (Py.NamedTypes [
    Py.NamedType "version" Rfc1157.Version.call,
    Py.NamedType "community" Rfc1157.Community.call,
    Py.NamedType "data" Rfc1157.Pdus.call])

/-- Modules of this package imported by rfc1157.py, in textual order. -/
def imports : List Py.Ident :=
  [(Py.mod 0 "rfc1155")]

/-- Dictionary operations executed when rfc1157.py is imported, in program order. -/
def effects : List Py.Effect :=
  []

/-- ASN.1 types rfc1157.py binds at module level (final version of each name), plus nested classes. -/
def classes : List (String × Py.Obj) :=
  [("rfc1157.Version", Rfc1157.Version),
   ("rfc1157.Community", Rfc1157.Community),
   ("rfc1157.RequestID", Rfc1157.RequestID),
   ("rfc1157.ErrorStatus", Rfc1157.ErrorStatus),
   ("rfc1157.ErrorIndex", Rfc1157.ErrorIndex),
   ("rfc1157.VarBind", Rfc1157.VarBind),
   ("rfc1157.VarBindList", Rfc1157.VarBindList),
   ("rfc1157._RequestBase", Rfc1157._RequestBase),
   ("rfc1157.GetRequestPDU", Rfc1157.GetRequestPDU),
   ("rfc1157.GetNextRequestPDU", Rfc1157.GetNextRequestPDU),
   ("rfc1157.GetResponsePDU", Rfc1157.GetResponsePDU),
   ("rfc1157.SetRequestPDU", Rfc1157.SetRequestPDU),
   ("rfc1157.TrapPDU", Rfc1157.TrapPDU),
   ("rfc1157.Pdus", Rfc1157.Pdus),
   ("rfc1157.Message", Rfc1157.Message)]

/-- pyasn1 instances rfc1157.py binds at module level. -/
def objects : List (String × Py.Obj) :=
  []

/-- pyasn1 instances rfc1157.py fills in by item assignment. -/
def protos : List (String × Py.Proto) :=
  []

/-- Every place of rfc1157.py that instantiates a class of the package: where, the class as it is
at that point, and the class as it is when the import has finished. -/
def snapshots : List Py.Snapshot :=
  [⟨"rfc1157.py:55", Rfc1155.ObjectName, Rfc1155.ObjectName⟩,
   ⟨"rfc1157.py:56", Rfc1155.ObjectSyntax, Rfc1155.ObjectSyntax⟩,
   ⟨"rfc1157.py:61", Rfc1157.VarBind, Rfc1157.VarBind⟩,
   ⟨"rfc1157.py:66", Rfc1157.RequestID, Rfc1157.RequestID⟩,
   ⟨"rfc1157.py:67", Rfc1157.ErrorStatus, Rfc1157.ErrorStatus⟩,
   ⟨"rfc1157.py:68", Rfc1157.ErrorIndex, Rfc1157.ErrorIndex⟩,
   ⟨"rfc1157.py:69", Rfc1157.VarBindList, Rfc1157.VarBindList⟩,
   ⟨"rfc1157.py:100", Rfc1155.NetworkAddress, Rfc1155.NetworkAddress⟩,
   ⟨"rfc1157.py:106", Rfc1155.TimeTicks, Rfc1155.TimeTicks⟩,
   ⟨"rfc1157.py:107", Rfc1157.VarBindList, Rfc1157.VarBindList⟩,
   ⟨"rfc1157.py:113", Rfc1157.GetRequestPDU, Rfc1157.GetRequestPDU⟩,
   ⟨"rfc1157.py:114", Rfc1157.GetNextRequestPDU, Rfc1157.GetNextRequestPDU⟩,
   ⟨"rfc1157.py:115", Rfc1157.GetResponsePDU, Rfc1157.GetResponsePDU⟩,
   ⟨"rfc1157.py:116", Rfc1157.SetRequestPDU, Rfc1157.SetRequestPDU⟩,
   ⟨"rfc1157.py:117", Rfc1157.TrapPDU, Rfc1157.TrapPDU⟩,
   ⟨"rfc1157.py:123", Rfc1157.Version, Rfc1157.Version⟩,
   ⟨"rfc1157.py:124", Rfc1157.Community, Rfc1157.Community⟩,
   ⟨"rfc1157.py:125", Rfc1157.Pdus, Rfc1157.Pdus⟩]

/-- Functions rfc1157.py defines. -/
def builders : List (String × (List Py.OidArg → Py.Obj)) :=
  []

def asModule : Py.Module :=
  { id := (Py.mod 1 "rfc1157"), imports := imports, effects := effects, classes := classes, objects := objects, protos := protos, snapshots := snapshots, builders := builders }

end Rfc1157
end Verif
