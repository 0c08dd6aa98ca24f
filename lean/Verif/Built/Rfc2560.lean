import Verif.Spec.Built
import Verif.Std.Rfc2560
import Verif.Built.Rfc2459
import Verif.Std.Rfc2459

/-! What rfc2560.py implements, where that is not the standard (generated by tools/builtgen.py). -/

namespace Verif
namespace Built
namespace Rfc2560

open Asn1 Verif.Std Spec.X680 Spec.Built

/-- `GeneralName ::=`, changed or supplied -/
def GeneralName : Ty :=
  OCTET_STRING

/-- `TBSRequest ::=` -/
def TBSRequest : Ty :=
  SEQUENCE [
    default "version" (explicit .context 0 Std.Rfc2560.Version) (.int 0),
    optional "requestorName" (explicit .context 1 Built.Rfc2560.GeneralName),
    mandatory "requestList" (SEQUENCE_OF Std.Rfc2560.Request),
    optional "requestExtensions" (explicit .context 2 Std.Rfc2459.Extensions)]

/-- `Signature ::=` -/
def Signature : Ty :=
  SEQUENCE [
    mandatory "signatureAlgorithm" Std.Rfc2459.AlgorithmIdentifier,
    mandatory "signature" BIT_STRING,
    optional "certs" (explicit .context 0 (SEQUENCE_OF Built.Rfc2459.Certificate))]

/-- `OCSPRequest ::=` -/
def OCSPRequest : Ty :=
  SEQUENCE [
    mandatory "tbsRequest" Built.Rfc2560.TBSRequest,
    optional "optionalSignature" (explicit .context 0 Built.Rfc2560.Signature)]

/-- `OCSPResponseStatus ::=`, changed or supplied -/
def OCSPResponseStatus : Ty :=
  named [("successful", 0), ("malformedRequest", 1), ("internalError", 2), ("tryLater", 3), ("undefinedStatus", 4), ("sigRequired", 5), ("unauthorized", 6)] ENUMERATED

/-- `OCSPResponse ::=` -/
def OCSPResponse : Ty :=
  SEQUENCE [
    mandatory "responseStatus" Built.Rfc2560.OCSPResponseStatus,
    optional "responseBytes" (explicit .context 0 Std.Rfc2560.ResponseBytes)]

/-- `ResponderID ::=` -/
def ResponderID : Ty :=
  CHOICE [
    mandatory "byName" (explicit .context 1 Built.Rfc2459.Name),
    mandatory "byKey" (explicit .context 2 Std.Rfc2560.KeyHash)]

/-- `CRLReason ::=`, changed or supplied -/
def CRLReason : Ty :=
  named [("unspecified", 0), ("keyCompromise", 1), ("cACompromise", 2), ("affiliationChanged", 3), ("superseded", 4), ("cessationOfOperation", 5), ("certificateHold", 6), ("removeFromCRL", 8), ("privilegeWithdrawn", 9), ("aACompromise", 10)] ENUMERATED

/-- `RevokedInfo ::=` -/
def RevokedInfo : Ty :=
  SEQUENCE [
    mandatory "revocationTime" GeneralizedTime,
    optional "revocationReason" (explicit .context 0 Built.Rfc2560.CRLReason)]

/-- `CertStatus ::=` -/
def CertStatus : Ty :=
  CHOICE [
    mandatory "good" (implicit .context 0 NULL),
    mandatory "revoked" (implicit .context 1 Built.Rfc2560.RevokedInfo),
    mandatory "unknown" (implicit .context 2 Std.Rfc2560.UnknownInfo)]

/-- `SingleResponse ::=` -/
def SingleResponse : Ty :=
  SEQUENCE [
    mandatory "certID" Std.Rfc2560.CertID,
    mandatory "certStatus" Built.Rfc2560.CertStatus,
    mandatory "thisUpdate" GeneralizedTime,
    optional "nextUpdate" (explicit .context 0 GeneralizedTime),
    optional "singleExtensions" (explicit .context 1 Std.Rfc2459.Extensions)]

/-- `ResponseData ::=` -/
def ResponseData : Ty :=
  SEQUENCE [
    default "version" (explicit .context 0 Std.Rfc2560.Version) (.int 0),
    mandatory "responderID" Built.Rfc2560.ResponderID,
    mandatory "producedAt" GeneralizedTime,
    mandatory "responses" (SEQUENCE_OF Built.Rfc2560.SingleResponse),
    optional "responseExtensions" (explicit .context 1 Std.Rfc2459.Extensions)]

/-- `BasicOCSPResponse ::=` -/
def BasicOCSPResponse : Ty :=
  SEQUENCE [
    mandatory "tbsResponseData" Built.Rfc2560.ResponseData,
    mandatory "signatureAlgorithm" Std.Rfc2459.AlgorithmIdentifier,
    mandatory "signature" BIT_STRING,
    optional "certs" (explicit .context 0 (SEQUENCE_OF Built.Rfc2459.Certificate))]

/-- `ServiceLocator ::=` -/
def ServiceLocator : Ty :=
  SEQUENCE [
    mandatory "issuer" Built.Rfc2459.Name,
    mandatory "locator" Built.Rfc2459.AuthorityInfoAccessSyntax]

def description : Description :=
  ⟨Verif.Rfc2560.asModule,
   [⟨"rfc2560.CRLReason", Verif.Rfc2560.CRLReason, Built.Rfc2560.CRLReason⟩,
    ⟨"rfc2560.GeneralName", Verif.Rfc2560.GeneralName, Built.Rfc2560.GeneralName⟩,
    ⟨"rfc2560.AcceptableResponses", Verif.Rfc2560.AcceptableResponses, Std.Rfc2560.AcceptableResponses⟩,
    ⟨"rfc2560.ArchiveCutoff", Verif.Rfc2560.ArchiveCutoff, Std.Rfc2560.ArchiveCutoff⟩,
    ⟨"rfc2560.UnknownInfo", Verif.Rfc2560.UnknownInfo, Std.Rfc2560.UnknownInfo⟩,
    ⟨"rfc2560.RevokedInfo", Verif.Rfc2560.RevokedInfo, Built.Rfc2560.RevokedInfo⟩,
    ⟨"rfc2560.CertID", Verif.Rfc2560.CertID, Std.Rfc2560.CertID⟩,
    ⟨"rfc2560.CertStatus", Verif.Rfc2560.CertStatus, Built.Rfc2560.CertStatus⟩,
    ⟨"rfc2560.SingleResponse", Verif.Rfc2560.SingleResponse, Built.Rfc2560.SingleResponse⟩,
    ⟨"rfc2560.KeyHash", Verif.Rfc2560.KeyHash, Std.Rfc2560.KeyHash⟩,
    ⟨"rfc2560.ResponderID", Verif.Rfc2560.ResponderID, Built.Rfc2560.ResponderID⟩,
    ⟨"rfc2560.Version", Verif.Rfc2560.Version, Std.Rfc2560.Version⟩,
    ⟨"rfc2560.ResponseData", Verif.Rfc2560.ResponseData, Built.Rfc2560.ResponseData⟩,
    ⟨"rfc2560.BasicOCSPResponse", Verif.Rfc2560.BasicOCSPResponse, Built.Rfc2560.BasicOCSPResponse⟩,
    ⟨"rfc2560.ResponseBytes", Verif.Rfc2560.ResponseBytes, Std.Rfc2560.ResponseBytes⟩,
    ⟨"rfc2560.OCSPResponseStatus", Verif.Rfc2560.OCSPResponseStatus, Built.Rfc2560.OCSPResponseStatus⟩,
    ⟨"rfc2560.OCSPResponse", Verif.Rfc2560.OCSPResponse, Built.Rfc2560.OCSPResponse⟩,
    ⟨"rfc2560.Request", Verif.Rfc2560.Request, Std.Rfc2560.Request⟩,
    ⟨"rfc2560.Signature", Verif.Rfc2560.Signature, Built.Rfc2560.Signature⟩,
    ⟨"rfc2560.TBSRequest", Verif.Rfc2560.TBSRequest, Built.Rfc2560.TBSRequest⟩,
    ⟨"rfc2560.OCSPRequest", Verif.Rfc2560.OCSPRequest, Built.Rfc2560.OCSPRequest⟩]⟩

end Rfc2560
end Built
end Verif
