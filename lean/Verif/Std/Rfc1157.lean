import Verif.Spec.Grade
import Verif.Gen.Rfc1157
import Verif.Std.Rfc1155

/-! The ASN.1 of tools/std/rfc1157.asn1 (generated by tools/stdgen.py). -/

namespace Verif
namespace Std
namespace Rfc1157

open Asn1 Spec.X680

/-- `VarBind ::=` -/
def VarBind : Ty :=
  SEQUENCE [
    mandatory "name" Std.Rfc1155.ObjectName,
    mandatory "value" Std.Rfc1155.ObjectSyntax]

/-- `VarBindList ::=` -/
def VarBindList : Ty :=
  SEQUENCE_OF VarBind

/-- `PDU ::=` -/
def PDU : Ty :=
  SEQUENCE [
    mandatory "request-id" INTEGER,
    mandatory "error-status" (named [("noError", 0), ("tooBig", 1), ("noSuchName", 2), ("badValue", 3), ("readOnly", 4), ("genErr", 5)] INTEGER),
    mandatory "error-index" INTEGER,
    mandatory "variable-bindings" VarBindList]

/-- `GetRequest-PDU ::=` -/
def GetRequest_PDU : Ty :=
  implicit .context 0 PDU

/-- `GetNextRequest-PDU ::=` -/
def GetNextRequest_PDU : Ty :=
  implicit .context 1 PDU

/-- `GetResponse-PDU ::=` -/
def GetResponse_PDU : Ty :=
  implicit .context 2 PDU

/-- `SetRequest-PDU ::=` -/
def SetRequest_PDU : Ty :=
  implicit .context 3 PDU

/-- `Trap-PDU ::=` -/
def Trap_PDU : Ty :=
  implicit .context 4 (SEQUENCE [
    mandatory "enterprise" OBJECT_IDENTIFIER,
    mandatory "agent-addr" Std.Rfc1155.NetworkAddress,
    mandatory "generic-trap" (named [("coldStart", 0), ("warmStart", 1), ("linkDown", 2), ("linkUp", 3), ("authenticationFailure", 4), ("egpNeighborLoss", 5), ("enterpriseSpecific", 6)] INTEGER),
    mandatory "specific-trap" INTEGER,
    mandatory "time-stamp" Std.Rfc1155.TimeTicks,
    mandatory "variable-bindings" VarBindList])

/-- `PDUs ::=` -/
def PDUs : Ty :=
  CHOICE [
    mandatory "get-request" GetRequest_PDU,
    mandatory "get-next-request" GetNextRequest_PDU,
    mandatory "get-response" GetResponse_PDU,
    mandatory "set-request" SetRequest_PDU,
    mandatory "trap" Trap_PDU]

/-- `Message ::=` -/
def Message : Ty :=
  SEQUENCE [
    mandatory "version" (named [("version-1", 0)] INTEGER),
    mandatory "community" OCTET_STRING,
    mandatory "data" PDUs]

/-- Classes of rfc1157.py and the types of the standard they implement. -/
def entries : List Entry :=
  [⟨"rfc1157.VarBind", Verif.Rfc1157.VarBind, VarBind, .same, false⟩,
   ⟨"rfc1157.VarBindList", Verif.Rfc1157.VarBindList, VarBindList, .same, false⟩,
   ⟨"rfc1157.GetRequestPDU", Verif.Rfc1157.GetRequestPDU, GetRequest_PDU, .same, false⟩,
   ⟨"rfc1157.GetNextRequestPDU", Verif.Rfc1157.GetNextRequestPDU, GetNextRequest_PDU, .same, false⟩,
   ⟨"rfc1157.GetResponsePDU", Verif.Rfc1157.GetResponsePDU, GetResponse_PDU, .same, false⟩,
   ⟨"rfc1157.SetRequestPDU", Verif.Rfc1157.SetRequestPDU, SetRequest_PDU, .same, false⟩,
   ⟨"rfc1157.TrapPDU", Verif.Rfc1157.TrapPDU, Trap_PDU, (.refused [164, 20, 6, 1, 43, 64, 4, 0, 0, 0, 0, 2, 1, 0, 2, 1, 0, 67, 1, 0, 48, 0]), false⟩,
   ⟨"rfc1157.Message", Verif.Rfc1157.Message, Message, (.refused [48, 27, 2, 1, 0, 4, 0, 164, 20, 6, 1, 43, 64, 4, 0, 0, 0, 0, 2, 1, 0, 2, 1, 0, 67, 1, 0, 48, 0]), false⟩]

/-- Classes of rfc1157.py the transcription of the standard has no type for. -/
def beyond : List String :=
  ["rfc1157.Version",
   "rfc1157.Community",
   "rfc1157.RequestID",
   "rfc1157.ErrorStatus",
   "rfc1157.ErrorIndex",
   "rfc1157._RequestBase",
   "rfc1157.Pdus"]

/-- Constants of rfc1157.py and the values the standard gives them. -/
def constants : List Constant :=
  []

/-- Constants of rfc1157.py the transcription of the standard has no value for. -/
def others : List String :=
  []

def standard : Standard := ⟨Verif.Rfc1157.asModule, entries, beyond, constants, others⟩

end Rfc1157
end Std
end Verif
