import Verif.Spec.Built
import Verif.Std.Rfc6960
import Verif.Built.Rfc5280
import Verif.Std.Rfc5280

/-! What rfc6960.py implements, where that is not the standard (generated by tools/builtgen.py). -/

namespace Verif
namespace Built
namespace Rfc6960

open Asn1 Verif.Std Spec.X680 Spec.Built

/-- `OCSPResponseStatus ::=`, changed or supplied -/
def OCSPResponseStatus : Ty :=
  named [("successful", 0), ("malformedRequest", 1), ("internalError", 2), ("tryLater", 3), ("undefinedStatus", 4), ("sigRequired", 5), ("unauthorized", 6)] ENUMERATED

/-- `OCSPResponse ::=` -/
def OCSPResponse : Ty :=
  SEQUENCE [
    mandatory "responseStatus" Built.Rfc6960.OCSPResponseStatus,
    optional "responseBytes" (explicit .context 0 Std.Rfc6960.ResponseBytes)]

def description : Description :=
  ⟨Verif.Rfc6960.asModule,
   [⟨"rfc6960.AlgorithmIdentifier", Verif.Rfc6960.AlgorithmIdentifier, Std.Rfc5280.AlgorithmIdentifier⟩,
    ⟨"rfc6960.AuthorityInfoAccessSyntax", Verif.Rfc6960.AuthorityInfoAccessSyntax, Std.Rfc5280.AuthorityInfoAccessSyntax⟩,
    ⟨"rfc6960.Certificate", Verif.Rfc6960.Certificate, Std.Rfc5280.Certificate⟩,
    ⟨"rfc6960.CertificateSerialNumber", Verif.Rfc6960.CertificateSerialNumber, Std.Rfc5280.CertificateSerialNumber⟩,
    ⟨"rfc6960.CRLReason", Verif.Rfc6960.CRLReason, Std.Rfc5280.CRLReason⟩,
    ⟨"rfc6960.Extensions", Verif.Rfc6960.Extensions, Std.Rfc5280.Extensions⟩,
    ⟨"rfc6960.GeneralName", Verif.Rfc6960.GeneralName, Std.Rfc5280.GeneralName⟩,
    ⟨"rfc6960.Name", Verif.Rfc6960.Name, Std.Rfc5280.Name⟩,
    ⟨"rfc6960.AcceptableResponses", Verif.Rfc6960.AcceptableResponses, Std.Rfc6960.AcceptableResponses⟩,
    ⟨"rfc6960.ArchiveCutoff", Verif.Rfc6960.ArchiveCutoff, Std.Rfc6960.ArchiveCutoff⟩,
    ⟨"rfc6960.CertStatus", Verif.Rfc6960.CertStatus, Std.Rfc6960.CertStatus⟩,
    ⟨"rfc6960.KeyHash", Verif.Rfc6960.KeyHash, Std.Rfc6960.KeyHash⟩,
    ⟨"rfc6960.OCSPResponse", Verif.Rfc6960.OCSPResponse, Built.Rfc6960.OCSPResponse⟩,
    ⟨"rfc6960.OCSPResponseStatus", Verif.Rfc6960.OCSPResponseStatus, Built.Rfc6960.OCSPResponseStatus⟩,
    ⟨"rfc6960.ResponseBytes", Verif.Rfc6960.ResponseBytes, Std.Rfc6960.ResponseBytes⟩,
    ⟨"rfc6960.RevokedInfo", Verif.Rfc6960.RevokedInfo, Std.Rfc6960.RevokedInfo⟩,
    ⟨"rfc6960.UnknownInfo", Verif.Rfc6960.UnknownInfo, Std.Rfc6960.UnknownInfo⟩,
    ⟨"rfc6960.Version", Verif.Rfc6960.Version, Std.Rfc6960.Version⟩,
    ⟨"rfc6960.CertID", Verif.Rfc6960.CertID, Std.Rfc6960.CertID⟩,
    ⟨"rfc6960.SingleResponse", Verif.Rfc6960.SingleResponse, Std.Rfc6960.SingleResponse⟩,
    ⟨"rfc6960.ResponderID", Verif.Rfc6960.ResponderID, Std.Rfc6960.ResponderID⟩,
    ⟨"rfc6960.ResponseData", Verif.Rfc6960.ResponseData, Std.Rfc6960.ResponseData⟩,
    ⟨"rfc6960.BasicOCSPResponse", Verif.Rfc6960.BasicOCSPResponse, Std.Rfc6960.BasicOCSPResponse⟩,
    ⟨"rfc6960.Request", Verif.Rfc6960.Request, Std.Rfc6960.Request⟩,
    ⟨"rfc6960.Signature", Verif.Rfc6960.Signature, Std.Rfc6960.Signature⟩,
    ⟨"rfc6960.TBSRequest", Verif.Rfc6960.TBSRequest, Std.Rfc6960.TBSRequest⟩,
    ⟨"rfc6960.OCSPRequest", Verif.Rfc6960.OCSPRequest, Std.Rfc6960.OCSPRequest⟩,
    ⟨"rfc6960.ServiceLocator", Verif.Rfc6960.ServiceLocator, Std.Rfc6960.ServiceLocator⟩,
    ⟨"rfc6960.CrlID", Verif.Rfc6960.CrlID, Std.Rfc6960.CrlID⟩,
    ⟨"rfc6960.PreferredSignatureAlgorithm", Verif.Rfc6960.PreferredSignatureAlgorithm, Std.Rfc6960.PreferredSignatureAlgorithm⟩,
    ⟨"rfc6960.PreferredSignatureAlgorithms", Verif.Rfc6960.PreferredSignatureAlgorithms, Std.Rfc6960.PreferredSignatureAlgorithms⟩]⟩

end Rfc6960
end Built
end Verif
