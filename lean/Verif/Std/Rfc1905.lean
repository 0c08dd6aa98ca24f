import Verif.Spec.Grade
import Verif.Gen.Rfc1905
import Verif.Std.Rfc1902

/-! The ASN.1 of tools/std/rfc1905.asn1 (generated by tools/stdgen.py). -/

namespace Verif
namespace Std
namespace Rfc1905

open Asn1 Spec.X680

/-- `VarBind ::=` -/
def VarBind : Ty :=
  SEQUENCE [
    mandatory "name" Std.Rfc1902.ObjectName,
    mandatory "" (CHOICE [
      mandatory "value" Std.Rfc1902.ObjectSyntax,
      mandatory "unSpecified" NULL,
      mandatory "noSuchObject" (implicit .context 0 NULL),
      mandatory "noSuchInstance" (implicit .context 1 NULL),
      mandatory "endOfMibView" (implicit .context 2 NULL)])]

/-- `VarBindList ::=` -/
def VarBindList : Ty :=
  constrained (SIZE 0 2147483647) (SEQUENCE_OF VarBind)

/-- `PDU ::=` -/
def PDU : Ty :=
  SEQUENCE [
    mandatory "request-id" Std.Rfc1902.Integer32,
    mandatory "error-status" (named [("noError", 0), ("tooBig", 1), ("noSuchName", 2), ("badValue", 3), ("readOnly", 4), ("genErr", 5), ("noAccess", 6), ("wrongType", 7), ("wrongLength", 8), ("wrongEncoding", 9), ("wrongValue", 10), ("noCreation", 11), ("inconsistentValue", 12), ("resourceUnavailable", 13), ("commitFailed", 14), ("undoFailed", 15), ("authorizationError", 16), ("notWritable", 17), ("inconsistentName", 18)] INTEGER),
    mandatory "error-index" (constrained (RANGE 0 2147483647) INTEGER),
    mandatory "variable-bindings" VarBindList]

/-- `GetRequest-PDU ::=` -/
def GetRequest_PDU : Ty :=
  implicit .context 0 PDU

/-- `GetNextRequest-PDU ::=` -/
def GetNextRequest_PDU : Ty :=
  implicit .context 1 PDU

/-- `BulkPDU ::=` -/
def BulkPDU : Ty :=
  SEQUENCE [
    mandatory "request-id" Std.Rfc1902.Integer32,
    mandatory "non-repeaters" (constrained (RANGE 0 2147483647) INTEGER),
    mandatory "max-repetitions" (constrained (RANGE 0 2147483647) INTEGER),
    mandatory "variable-bindings" VarBindList]

/-- `GetBulkRequest-PDU ::=` -/
def GetBulkRequest_PDU : Ty :=
  implicit .context 5 BulkPDU

/-- `Response-PDU ::=` -/
def Response_PDU : Ty :=
  implicit .context 2 PDU

/-- `SetRequest-PDU ::=` -/
def SetRequest_PDU : Ty :=
  implicit .context 3 PDU

/-- `InformRequest-PDU ::=` -/
def InformRequest_PDU : Ty :=
  implicit .context 6 PDU

/-- `SNMPv2-Trap-PDU ::=` -/
def SNMPv2_Trap_PDU : Ty :=
  implicit .context 7 PDU

/-- `Report-PDU ::=` -/
def Report_PDU : Ty :=
  implicit .context 8 PDU

/-- `PDUs ::=` -/
def PDUs : Ty :=
  CHOICE [
    mandatory "get-request" GetRequest_PDU,
    mandatory "get-next-request" GetNextRequest_PDU,
    mandatory "get-bulk-request" GetBulkRequest_PDU,
    mandatory "response" Response_PDU,
    mandatory "set-request" SetRequest_PDU,
    mandatory "inform-request" InformRequest_PDU,
    mandatory "snmpV2-trap" SNMPv2_Trap_PDU,
    mandatory "report" Report_PDU]

/-- Classes of rfc1905.py and the types of the standard they implement. -/
def entries : List Entry :=
  [⟨"rfc1905.VarBind", Verif.Rfc1905.VarBind, VarBind, .same, true⟩,
   ⟨"rfc1905.VarBindList", Verif.Rfc1905.VarBindList, VarBindList, .same, true⟩,
   ⟨"rfc1905.PDU", Verif.Rfc1905.PDU, PDU, .same, true⟩,
   ⟨"rfc1905.BulkPDU", Verif.Rfc1905.BulkPDU, BulkPDU, .same, true⟩,
   ⟨"rfc1905.GetRequestPDU", Verif.Rfc1905.GetRequestPDU, GetRequest_PDU, .same, true⟩,
   ⟨"rfc1905.GetNextRequestPDU", Verif.Rfc1905.GetNextRequestPDU, GetNextRequest_PDU, .same, true⟩,
   ⟨"rfc1905.ResponsePDU", Verif.Rfc1905.ResponsePDU, Response_PDU, .same, true⟩,
   ⟨"rfc1905.SetRequestPDU", Verif.Rfc1905.SetRequestPDU, SetRequest_PDU, .same, true⟩,
   ⟨"rfc1905.GetBulkRequestPDU", Verif.Rfc1905.GetBulkRequestPDU, GetBulkRequest_PDU, .same, true⟩,
   ⟨"rfc1905.InformRequestPDU", Verif.Rfc1905.InformRequestPDU, InformRequest_PDU, .same, true⟩,
   ⟨"rfc1905.SNMPv2TrapPDU", Verif.Rfc1905.SNMPv2TrapPDU, SNMPv2_Trap_PDU, .same, true⟩,
   ⟨"rfc1905.ReportPDU", Verif.Rfc1905.ReportPDU, Report_PDU, .same, true⟩,
   ⟨"rfc1905.PDUs", Verif.Rfc1905.PDUs, PDUs, .same, true⟩]

/-- Classes of rfc1905.py the transcription of the standard has no type for. -/
def beyond : List String :=
  ["rfc1905._BindValue"]

/-- Constants of rfc1905.py and the values the standard gives them. -/
def constants : List Constant :=
  [⟨"rfc1905.max_bindings", Verif.Rfc1905.max_bindings, INTEGER, .int 2147483647, true⟩]

/-- Constants of rfc1905.py the transcription of the standard has no value for. -/
def others : List String :=
  []

def standard : Standard := ⟨Verif.Rfc1905.asModule, entries, beyond, constants, others⟩

end Rfc1905
end Std
end Verif
