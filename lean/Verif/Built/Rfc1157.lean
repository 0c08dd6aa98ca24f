import Verif.Spec.Built
import Verif.Std.Rfc1157
import Verif.Std.Rfc1155

/-! What rfc1157.py implements, where that is not the standard (generated by tools/builtgen.py). -/

namespace Verif
namespace Built
namespace Rfc1157

open Asn1 Verif.Std Spec.X680 Spec.Built

/-- `Trap-PDU ::=`, changed or supplied -/
def Trap_PDU : Ty :=
  SEQUENCE [
    mandatory "enterprise" OBJECT_IDENTIFIER,
    mandatory "agent-addr" Std.Rfc1155.NetworkAddress,
    mandatory "generic-trap" (named [("coldStart", 0), ("warmStart", 1), ("linkDown", 2), ("linkUp", 3), ("authenticationFailure", 4), ("egpNeighborLoss", 5), ("enterpriseSpecific", 6)] INTEGER),
    mandatory "specific-trap" INTEGER,
    mandatory "time-stamp" Std.Rfc1155.TimeTicks,
    mandatory "variable-bindings" Std.Rfc1157.VarBindList]

/-- `PDUs ::=` -/
def PDUs : Ty :=
  CHOICE [
    mandatory "get-request" Std.Rfc1157.GetRequest_PDU,
    mandatory "get-next-request" Std.Rfc1157.GetNextRequest_PDU,
    mandatory "get-response" Std.Rfc1157.GetResponse_PDU,
    mandatory "set-request" Std.Rfc1157.SetRequest_PDU,
    mandatory "trap" Built.Rfc1157.Trap_PDU]

/-- `Message ::=` -/
def Message : Ty :=
  SEQUENCE [
    mandatory "version" (named [("version-1", 0)] INTEGER),
    mandatory "community" OCTET_STRING,
    mandatory "data" Built.Rfc1157.PDUs]

/-- `Version ::=`, changed or supplied -/
def Version : Ty :=
  named [("version-1", 0)] INTEGER

/-- `Community ::=`, changed or supplied -/
def Community : Ty :=
  OCTET_STRING

/-- `RequestID ::=`, changed or supplied -/
def RequestID : Ty :=
  INTEGER

/-- `ErrorStatus ::=`, changed or supplied -/
def ErrorStatus : Ty :=
  named [("noError", 0), ("tooBig", 1), ("noSuchName", 2), ("badValue", 3), ("readOnly", 4), ("genErr", 5)] INTEGER

/-- `ErrorIndex ::=`, changed or supplied -/
def ErrorIndex : Ty :=
  INTEGER

/-- `RequestBase ::=`, changed or supplied -/
def RequestBase : Ty :=
  SEQUENCE [
    mandatory "request-id" Built.Rfc1157.RequestID,
    mandatory "error-status" Built.Rfc1157.ErrorStatus,
    mandatory "error-index" Built.Rfc1157.ErrorIndex,
    mandatory "variable-bindings" Std.Rfc1157.VarBindList]

/-- `Pdus ::=`, changed or supplied -/
def Pdus : Ty :=
  Built.Rfc1157.PDUs

def description : Description :=
  ⟨Verif.Rfc1157.asModule,
   [⟨"rfc1157.Version", Verif.Rfc1157.Version, Built.Rfc1157.Version⟩,
    ⟨"rfc1157.Community", Verif.Rfc1157.Community, Built.Rfc1157.Community⟩,
    ⟨"rfc1157.RequestID", Verif.Rfc1157.RequestID, Built.Rfc1157.RequestID⟩,
    ⟨"rfc1157.ErrorStatus", Verif.Rfc1157.ErrorStatus, Built.Rfc1157.ErrorStatus⟩,
    ⟨"rfc1157.ErrorIndex", Verif.Rfc1157.ErrorIndex, Built.Rfc1157.ErrorIndex⟩,
    ⟨"rfc1157.VarBind", Verif.Rfc1157.VarBind, Std.Rfc1157.VarBind⟩,
    ⟨"rfc1157.VarBindList", Verif.Rfc1157.VarBindList, Std.Rfc1157.VarBindList⟩,
    ⟨"rfc1157._RequestBase", Verif.Rfc1157._RequestBase, Built.Rfc1157.RequestBase⟩,
    ⟨"rfc1157.GetRequestPDU", Verif.Rfc1157.GetRequestPDU, Std.Rfc1157.GetRequest_PDU⟩,
    ⟨"rfc1157.GetNextRequestPDU", Verif.Rfc1157.GetNextRequestPDU, Std.Rfc1157.GetNextRequest_PDU⟩,
    ⟨"rfc1157.GetResponsePDU", Verif.Rfc1157.GetResponsePDU, Std.Rfc1157.GetResponse_PDU⟩,
    ⟨"rfc1157.SetRequestPDU", Verif.Rfc1157.SetRequestPDU, Std.Rfc1157.SetRequest_PDU⟩,
    ⟨"rfc1157.TrapPDU", Verif.Rfc1157.TrapPDU, Built.Rfc1157.Trap_PDU⟩,
    ⟨"rfc1157.Pdus", Verif.Rfc1157.Pdus, Built.Rfc1157.Pdus⟩,
    ⟨"rfc1157.Message", Verif.Rfc1157.Message, Built.Rfc1157.Message⟩]⟩

end Rfc1157
end Built
end Verif
