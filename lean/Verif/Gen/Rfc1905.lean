import Verif.Py.Obj
import Verif.Gen.Rfc1902

/-! Transcription of /repo/pyasn1_modules/rfc1905.py (generated by tools/gen.py). -/

namespace Verif
namespace Rfc1905

/-- rfc1905.py:20 -/
def max_bindings : Py.Obj :=
  (Rfc1902.Integer.call.callInt 2147483647)

/-- rfc1905.py:23-33 `class _BindValue(univ.Choice)` -/
def _BindValue : Py.Obj :=
  Py.univ.Choice.setComponentType (Py.NamedTypes [
    Py.NamedType "value" Rfc1902.ObjectSyntax.call,
    Py.NamedType "unSpecified" Py.univ.Null.call,
    Py.NamedType "noSuchObject" (Py.univ.Null.call.implicitTag (Py.Tag .context false 0)),
    Py.NamedType "noSuchInstance" (Py.univ.Null.call.implicitTag (Py.Tag .context false 1)),
    Py.NamedType "endOfMibView" (Py.univ.Null.call.implicitTag (Py.Tag .context false 2))])

/-- rfc1905.py:36-40 `class VarBind(univ.Sequence)` -/
def VarBind : Py.Obj :=
  Py.univ.Sequence.setComponentType (Py.NamedTypes [
    Py.NamedType "name" Rfc1902.ObjectName.call,
    Py.NamedType "" Rfc1905._BindValue.call])

/-- rfc1905.py:43-47 `class VarBindList(univ.SequenceOf)` -/
def VarBindList : Py.Obj :=
  (Py.univ.SequenceOf.setComponentTypeOf Rfc1905.VarBind.call).setSizeSpec (Py.univ.SequenceOf.sizeSpec.add (Py.ValueSizeConstraint (.fin 0) Rfc1905.max_bindings.bound))

/-- rfc1905.py:50-63 `class PDU(univ.Sequence)` -/
def PDU : Py.Obj :=
  Py.univ.Sequence.setComponentType (Py.NamedTypes [
    Py.NamedType "request-id" Rfc1902.Integer32.call,
    Py.NamedType "error-status" (Py.univ.Integer.call.setNamedValues (Py.NamedValues [("noError", 0), ("tooBig", 1), ("noSuchName", 2), ("badValue", 3), ("readOnly", 4), ("genErr", 5), ("noAccess", 6), ("wrongType", 7), ("wrongLength", 8), ("wrongEncoding", 9), ("wrongValue", 10), ("noCreation", 11), ("inconsistentValue", 12), ("resourceUnavailable", 13), ("commitFailed", 14), ("undoFailed", 15), ("authorizationError", 16), ("notWritable", 17), ("inconsistentName", 18)])),
    Py.NamedType "error-index" (Py.univ.Integer.call.addSubtypeSpec (Py.ValueRangeConstraint (.fin 0) Rfc1905.max_bindings.bound)),
    Py.NamedType "variable-bindings" Rfc1905.VarBindList.call])

/-- rfc1905.py:66-74 `class BulkPDU(univ.Sequence)` -/
def BulkPDU : Py.Obj :=
  Py.univ.Sequence.setComponentType (Py.NamedTypes [
    Py.NamedType "request-id" Rfc1902.Integer32.call,
    Py.NamedType "non-repeaters" (Py.univ.Integer.call.addSubtypeSpec (Py.ValueRangeConstraint (.fin 0) Rfc1905.max_bindings.bound)),
    Py.NamedType "max-repetitions" (Py.univ.Integer.call.addSubtypeSpec (Py.ValueRangeConstraint (.fin 0) Rfc1905.max_bindings.bound)),
    Py.NamedType "variable-bindings" Rfc1905.VarBindList.call])

/-- rfc1905.py:77-80 `class GetRequestPDU(PDU)` -/
def GetRequestPDU : Py.Obj :=
  Rfc1905.PDU.setTagSet (Rfc1905.PDU.tagSet.tagImplicitly (Py.Tag .context true 0))

/-- rfc1905.py:83-86 `class GetNextRequestPDU(PDU)` -/
def GetNextRequestPDU : Py.Obj :=
  Rfc1905.PDU.setTagSet (Rfc1905.PDU.tagSet.tagImplicitly (Py.Tag .context true 1))

/-- rfc1905.py:89-92 `class ResponsePDU(PDU)` -/
def ResponsePDU : Py.Obj :=
  Rfc1905.PDU.setTagSet (Rfc1905.PDU.tagSet.tagImplicitly (Py.Tag .context true 2))

/-- rfc1905.py:95-98 `class SetRequestPDU(PDU)` -/
def SetRequestPDU : Py.Obj :=
  Rfc1905.PDU.setTagSet (Rfc1905.PDU.tagSet.tagImplicitly (Py.Tag .context true 3))

/-- rfc1905.py:101-104 `class GetBulkRequestPDU(BulkPDU)` -/
def GetBulkRequestPDU : Py.Obj :=
  Rfc1905.BulkPDU.setTagSet (Rfc1905.PDU.tagSet.tagImplicitly (Py.Tag .context true 5))

/-- rfc1905.py:107-110 `class InformRequestPDU(PDU)` -/
def InformRequestPDU : Py.Obj :=
  Rfc1905.PDU.setTagSet (Rfc1905.PDU.tagSet.tagImplicitly (Py.Tag .context true 6))

/-- rfc1905.py:113-116 `class SNMPv2TrapPDU(PDU)` -/
def SNMPv2TrapPDU : Py.Obj :=
  Rfc1905.PDU.setTagSet (Rfc1905.PDU.tagSet.tagImplicitly (Py.Tag .context true 7))

/-- rfc1905.py:119-122 `class ReportPDU(PDU)` -/
def ReportPDU : Py.Obj :=
  Rfc1905.PDU.setTagSet (Rfc1905.PDU.tagSet.tagImplicitly (Py.Tag .context true 8))

/-- rfc1905.py:125-135 `class PDUs(univ.Choice)` -/
def PDUs : Py.Obj :=
  Py.univ.Choice.setComponentType (Py.NamedTypes [
    Py.NamedType "get-request" Rfc1905.GetRequestPDU.call,
    Py.NamedType "get-next-request" Rfc1905.GetNextRequestPDU.call,
    Py.NamedType "get-bulk-request" Rfc1905.GetBulkRequestPDU.call,
    Py.NamedType "response" Rfc1905.ResponsePDU.call,
    Py.NamedType "set-request" Rfc1905.SetRequestPDU.call,
    Py.NamedType "inform-request" Rfc1905.InformRequestPDU.call,
    Py.NamedType "snmpV2-trap" Rfc1905.SNMPv2TrapPDU.call,
    Py.NamedType "report" Rfc1905.ReportPDU.call])

/-- Modules of this package imported by rfc1905.py, in textual order. -/
def imports : List Py.Ident :=
  [(Py.mod 3 "rfc1902")]

/-- Dictionary operations executed when rfc1905.py is imported, in program order. -/
def effects : List Py.Effect :=
  []

/-- ASN.1 types rfc1905.py binds at module level (final version of each name), plus nested classes. -/
def classes : List (String × Py.Obj) :=
  [("rfc1905._BindValue", Rfc1905._BindValue),
   ("rfc1905.VarBind", Rfc1905.VarBind),
   ("rfc1905.VarBindList", Rfc1905.VarBindList),
   ("rfc1905.PDU", Rfc1905.PDU),
   ("rfc1905.BulkPDU", Rfc1905.BulkPDU),
   ("rfc1905.GetRequestPDU", Rfc1905.GetRequestPDU),
   ("rfc1905.GetNextRequestPDU", Rfc1905.GetNextRequestPDU),
   ("rfc1905.ResponsePDU", Rfc1905.ResponsePDU),
   ("rfc1905.SetRequestPDU", Rfc1905.SetRequestPDU),
   ("rfc1905.GetBulkRequestPDU", Rfc1905.GetBulkRequestPDU),
   ("rfc1905.InformRequestPDU", Rfc1905.InformRequestPDU),
   ("rfc1905.SNMPv2TrapPDU", Rfc1905.SNMPv2TrapPDU),
   ("rfc1905.ReportPDU", Rfc1905.ReportPDU),
   ("rfc1905.PDUs", Rfc1905.PDUs)]

/-- pyasn1 instances rfc1905.py binds at module level. -/
def objects : List (String × Py.Obj) :=
  [("rfc1905.max_bindings", Rfc1905.max_bindings)]

/-- pyasn1 instances rfc1905.py fills in by item assignment. -/
def protos : List (String × Py.Proto) :=
  []

/-- Every place of rfc1905.py that instantiates a class of the package: where, the class as it is
at that point, and the class as it is when the import has finished. -/
def snapshots : List Py.Snapshot :=
  [⟨"rfc1905.py:20", Rfc1902.Integer, Rfc1902.Integer⟩,
   ⟨"rfc1905.py:25", Rfc1902.ObjectSyntax, Rfc1902.ObjectSyntax⟩,
   ⟨"rfc1905.py:38", Rfc1902.ObjectName, Rfc1902.ObjectName⟩,
   ⟨"rfc1905.py:39", Rfc1905._BindValue, Rfc1905._BindValue⟩,
   ⟨"rfc1905.py:44", Rfc1905.VarBind, Rfc1905.VarBind⟩,
   ⟨"rfc1905.py:52", Rfc1902.Integer32, Rfc1902.Integer32⟩,
   ⟨"rfc1905.py:62", Rfc1905.VarBindList, Rfc1905.VarBindList⟩,
   ⟨"rfc1905.py:68", Rfc1902.Integer32, Rfc1902.Integer32⟩,
   ⟨"rfc1905.py:73", Rfc1905.VarBindList, Rfc1905.VarBindList⟩,
   ⟨"rfc1905.py:127", Rfc1905.GetRequestPDU, Rfc1905.GetRequestPDU⟩,
   ⟨"rfc1905.py:128", Rfc1905.GetNextRequestPDU, Rfc1905.GetNextRequestPDU⟩,
   ⟨"rfc1905.py:129", Rfc1905.GetBulkRequestPDU, Rfc1905.GetBulkRequestPDU⟩,
   ⟨"rfc1905.py:130", Rfc1905.ResponsePDU, Rfc1905.ResponsePDU⟩,
   ⟨"rfc1905.py:131", Rfc1905.SetRequestPDU, Rfc1905.SetRequestPDU⟩,
   ⟨"rfc1905.py:132", Rfc1905.InformRequestPDU, Rfc1905.InformRequestPDU⟩,
   ⟨"rfc1905.py:133", Rfc1905.SNMPv2TrapPDU, Rfc1905.SNMPv2TrapPDU⟩,
   ⟨"rfc1905.py:134", Rfc1905.ReportPDU, Rfc1905.ReportPDU⟩]

/-- Functions rfc1905.py defines. -/
def builders : List (String × (List Py.OidArg → Py.Obj)) :=
  []

def asModule : Py.Module :=
  { id := (Py.mod 4 "rfc1905"), imports := imports, effects := effects, classes := classes, objects := objects, protos := protos, snapshots := snapshots, builders := builders }

end Rfc1905
end Verif
