import Verif.Spec.Built
import Verif.Std.Rfc1905
import Verif.Built.Rfc1902
import Verif.Std.Rfc1902

/-! What rfc1905.py implements, where that is not the standard (generated by tools/builtgen.py). -/

namespace Verif
namespace Built
namespace Rfc1905

open Asn1 Verif.Std Spec.X680 Spec.Built

/-- `BindValue ::=`, changed or supplied -/
def BindValue : Ty :=
  CHOICE [
    mandatory "value" Built.Rfc1902.ObjectSyntax,
    mandatory "unSpecified" NULL,
    mandatory "noSuchObject" (implicit .context 0 NULL),
    mandatory "noSuchInstance" (implicit .context 1 NULL),
    mandatory "endOfMibView" (implicit .context 2 NULL)]

/-- `VarBind ::=`, changed or supplied -/
def VarBind : Ty :=
  SEQUENCE [
    mandatory "name" Std.Rfc1902.ObjectName,
    mandatory "" Built.Rfc1905.BindValue]

/-- `VarBindList ::=` -/
def VarBindList : Ty :=
  constrained (SIZE 0 2147483647) (SEQUENCE_OF Built.Rfc1905.VarBind)

/-- `PDU ::=` -/
def PDU : Ty :=
  SEQUENCE [
    mandatory "request-id" Std.Rfc1902.Integer32,
    mandatory "error-status" (named [("noError", 0), ("tooBig", 1), ("noSuchName", 2), ("badValue", 3), ("readOnly", 4), ("genErr", 5), ("noAccess", 6), ("wrongType", 7), ("wrongLength", 8), ("wrongEncoding", 9), ("wrongValue", 10), ("noCreation", 11), ("inconsistentValue", 12), ("resourceUnavailable", 13), ("commitFailed", 14), ("undoFailed", 15), ("authorizationError", 16), ("notWritable", 17), ("inconsistentName", 18)] INTEGER),
    mandatory "error-index" (constrained (RANGE 0 2147483647) INTEGER),
    mandatory "variable-bindings" Built.Rfc1905.VarBindList]

/-- `GetRequest-PDU ::=` -/
def GetRequest_PDU : Ty :=
  implicit .context 0 Built.Rfc1905.PDU

/-- `GetNextRequest-PDU ::=` -/
def GetNextRequest_PDU : Ty :=
  implicit .context 1 Built.Rfc1905.PDU

/-- `BulkPDU ::=` -/
def BulkPDU : Ty :=
  SEQUENCE [
    mandatory "request-id" Std.Rfc1902.Integer32,
    mandatory "non-repeaters" (constrained (RANGE 0 2147483647) INTEGER),
    mandatory "max-repetitions" (constrained (RANGE 0 2147483647) INTEGER),
    mandatory "variable-bindings" Built.Rfc1905.VarBindList]

/-- `GetBulkRequest-PDU ::=` -/
def GetBulkRequest_PDU : Ty :=
  implicit .context 5 Built.Rfc1905.BulkPDU

/-- `Response-PDU ::=` -/
def Response_PDU : Ty :=
  implicit .context 2 Built.Rfc1905.PDU

/-- `SetRequest-PDU ::=` -/
def SetRequest_PDU : Ty :=
  implicit .context 3 Built.Rfc1905.PDU

/-- `InformRequest-PDU ::=` -/
def InformRequest_PDU : Ty :=
  implicit .context 6 Built.Rfc1905.PDU

/-- `SNMPv2-Trap-PDU ::=` -/
def SNMPv2_Trap_PDU : Ty :=
  implicit .context 7 Built.Rfc1905.PDU

/-- `Report-PDU ::=` -/
def Report_PDU : Ty :=
  implicit .context 8 Built.Rfc1905.PDU

/-- `PDUs ::=` -/
def PDUs : Ty :=
  CHOICE [
    mandatory "get-request" Built.Rfc1905.GetRequest_PDU,
    mandatory "get-next-request" Built.Rfc1905.GetNextRequest_PDU,
    mandatory "get-bulk-request" Built.Rfc1905.GetBulkRequest_PDU,
    mandatory "response" Built.Rfc1905.Response_PDU,
    mandatory "set-request" Built.Rfc1905.SetRequest_PDU,
    mandatory "inform-request" Built.Rfc1905.InformRequest_PDU,
    mandatory "snmpV2-trap" Built.Rfc1905.SNMPv2_Trap_PDU,
    mandatory "report" Built.Rfc1905.Report_PDU]

def description : Description :=
  ⟨Verif.Rfc1905.asModule,
   [⟨"rfc1905._BindValue", Verif.Rfc1905._BindValue, Built.Rfc1905.BindValue⟩,
    ⟨"rfc1905.VarBind", Verif.Rfc1905.VarBind, Built.Rfc1905.VarBind⟩,
    ⟨"rfc1905.VarBindList", Verif.Rfc1905.VarBindList, Built.Rfc1905.VarBindList⟩,
    ⟨"rfc1905.PDU", Verif.Rfc1905.PDU, Built.Rfc1905.PDU⟩,
    ⟨"rfc1905.BulkPDU", Verif.Rfc1905.BulkPDU, Built.Rfc1905.BulkPDU⟩,
    ⟨"rfc1905.GetRequestPDU", Verif.Rfc1905.GetRequestPDU, Built.Rfc1905.GetRequest_PDU⟩,
    ⟨"rfc1905.GetNextRequestPDU", Verif.Rfc1905.GetNextRequestPDU, Built.Rfc1905.GetNextRequest_PDU⟩,
    ⟨"rfc1905.ResponsePDU", Verif.Rfc1905.ResponsePDU, Built.Rfc1905.Response_PDU⟩,
    ⟨"rfc1905.SetRequestPDU", Verif.Rfc1905.SetRequestPDU, Built.Rfc1905.SetRequest_PDU⟩,
    ⟨"rfc1905.GetBulkRequestPDU", Verif.Rfc1905.GetBulkRequestPDU, Built.Rfc1905.GetBulkRequest_PDU⟩,
    ⟨"rfc1905.InformRequestPDU", Verif.Rfc1905.InformRequestPDU, Built.Rfc1905.InformRequest_PDU⟩,
    ⟨"rfc1905.SNMPv2TrapPDU", Verif.Rfc1905.SNMPv2TrapPDU, Built.Rfc1905.SNMPv2_Trap_PDU⟩,
    ⟨"rfc1905.ReportPDU", Verif.Rfc1905.ReportPDU, Built.Rfc1905.Report_PDU⟩,
    ⟨"rfc1905.PDUs", Verif.Rfc1905.PDUs, Built.Rfc1905.PDUs⟩]⟩

end Rfc1905
end Built
end Verif
