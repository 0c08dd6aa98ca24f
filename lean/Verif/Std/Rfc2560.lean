import Verif.Spec.Grade
import Verif.Gen.Rfc2560
import Verif.Std.Rfc2459

/-! The ASN.1 of tools/std/rfc2560.asn1 (generated by tools/stdgen.py). -/

namespace Verif
namespace Std
namespace Rfc2560

open Asn1 Spec.X680

/-- `Version ::=` -/
def Version : Ty :=
  named [("v1", 0)] INTEGER

/-- `CertID ::=` -/
def CertID : Ty :=
  SEQUENCE [
    mandatory "hashAlgorithm" Std.Rfc2459.AlgorithmIdentifier,
    mandatory "issuerNameHash" OCTET_STRING,
    mandatory "issuerKeyHash" OCTET_STRING,
    mandatory "serialNumber" Std.Rfc2459.CertificateSerialNumber]

/-- `Request ::=` -/
def Request : Ty :=
  SEQUENCE [
    mandatory "reqCert" CertID,
    optional "singleRequestExtensions" (explicit .context 0 Std.Rfc2459.Extensions)]

/-- `TBSRequest ::=` -/
def TBSRequest : Ty :=
  SEQUENCE [
    default "version" (explicit .context 0 Version) (.int 0),
    optional "requestorName" (explicit .context 1 Std.Rfc2459.GeneralName),
    mandatory "requestList" (SEQUENCE_OF Request),
    optional "requestExtensions" (explicit .context 2 Std.Rfc2459.Extensions)]

/-- `Signature ::=` -/
def Signature : Ty :=
  SEQUENCE [
    mandatory "signatureAlgorithm" Std.Rfc2459.AlgorithmIdentifier,
    mandatory "signature" BIT_STRING,
    optional "certs" (explicit .context 0 (SEQUENCE_OF Std.Rfc2459.Certificate))]

/-- `OCSPRequest ::=` -/
def OCSPRequest : Ty :=
  SEQUENCE [
    mandatory "tbsRequest" TBSRequest,
    optional "optionalSignature" (explicit .context 0 Signature)]

/-- `OCSPResponseStatus ::=` -/
def OCSPResponseStatus : Ty :=
  named [("successful", 0), ("malformedRequest", 1), ("internalError", 2), ("tryLater", 3), ("sigRequired", 5), ("unauthorized", 6)] ENUMERATED

/-- `ResponseBytes ::=` -/
def ResponseBytes : Ty :=
  SEQUENCE [
    mandatory "responseType" OBJECT_IDENTIFIER,
    mandatory "response" OCTET_STRING]

/-- `OCSPResponse ::=` -/
def OCSPResponse : Ty :=
  SEQUENCE [
    mandatory "responseStatus" OCSPResponseStatus,
    optional "responseBytes" (explicit .context 0 ResponseBytes)]

/-- `KeyHash ::=` -/
def KeyHash : Ty :=
  OCTET_STRING

/-- `ResponderID ::=` -/
def ResponderID : Ty :=
  CHOICE [
    mandatory "byName" (explicit .context 1 Std.Rfc2459.Name),
    mandatory "byKey" (explicit .context 2 KeyHash)]

/-- `RevokedInfo ::=` -/
def RevokedInfo : Ty :=
  SEQUENCE [
    mandatory "revocationTime" GeneralizedTime,
    optional "revocationReason" (explicit .context 0 Std.Rfc2459.CRLReason)]

/-- `UnknownInfo ::=` -/
def UnknownInfo : Ty :=
  NULL

/-- `CertStatus ::=` -/
def CertStatus : Ty :=
  CHOICE [
    mandatory "good" (implicit .context 0 NULL),
    mandatory "revoked" (implicit .context 1 RevokedInfo),
    mandatory "unknown" (implicit .context 2 UnknownInfo)]

/-- `SingleResponse ::=` -/
def SingleResponse : Ty :=
  SEQUENCE [
    mandatory "certID" CertID,
    mandatory "certStatus" CertStatus,
    mandatory "thisUpdate" GeneralizedTime,
    optional "nextUpdate" (explicit .context 0 GeneralizedTime),
    optional "singleExtensions" (explicit .context 1 Std.Rfc2459.Extensions)]

/-- `ResponseData ::=` -/
def ResponseData : Ty :=
  SEQUENCE [
    default "version" (explicit .context 0 Version) (.int 0),
    mandatory "responderID" ResponderID,
    mandatory "producedAt" GeneralizedTime,
    mandatory "responses" (SEQUENCE_OF SingleResponse),
    optional "responseExtensions" (explicit .context 1 Std.Rfc2459.Extensions)]

/-- `BasicOCSPResponse ::=` -/
def BasicOCSPResponse : Ty :=
  SEQUENCE [
    mandatory "tbsResponseData" ResponseData,
    mandatory "signatureAlgorithm" Std.Rfc2459.AlgorithmIdentifier,
    mandatory "signature" BIT_STRING,
    optional "certs" (explicit .context 0 (SEQUENCE_OF Std.Rfc2459.Certificate))]

/-- `ArchiveCutoff ::=` -/
def ArchiveCutoff : Ty :=
  GeneralizedTime

/-- `AcceptableResponses ::=` -/
def AcceptableResponses : Ty :=
  SEQUENCE_OF OBJECT_IDENTIFIER

/-- `ServiceLocator ::=` -/
def ServiceLocator : Ty :=
  SEQUENCE [
    mandatory "issuer" Std.Rfc2459.Name,
    mandatory "locator" Std.Rfc2459.AuthorityInfoAccessSyntax]

/-- `CrlID ::=` -/
def CrlID : Ty :=
  SEQUENCE [
    optional "crlUrl" (explicit .context 0 IA5String),
    optional "crlNum" (explicit .context 1 INTEGER),
    optional "crlTime" (explicit .context 2 GeneralizedTime)]

/-- Classes of rfc2560.py and the types of the standard they implement. -/
def entries : List Entry :=
  [⟨"rfc2560.CRLReason", Verif.Rfc2560.CRLReason, Std.Rfc2459.CRLReason, .same, true⟩,
   ⟨"rfc2560.GeneralName", Verif.Rfc2560.GeneralName, Std.Rfc2459.GeneralName, (.refused [129, 0]), true⟩,
   ⟨"rfc2560.AcceptableResponses", Verif.Rfc2560.AcceptableResponses, AcceptableResponses, .same, false⟩,
   ⟨"rfc2560.ArchiveCutoff", Verif.Rfc2560.ArchiveCutoff, ArchiveCutoff, .same, false⟩,
   ⟨"rfc2560.UnknownInfo", Verif.Rfc2560.UnknownInfo, UnknownInfo, .same, false⟩,
   ⟨"rfc2560.RevokedInfo", Verif.Rfc2560.RevokedInfo, RevokedInfo, .same, true⟩,
   ⟨"rfc2560.CertID", Verif.Rfc2560.CertID, CertID, .same, false⟩,
   ⟨"rfc2560.CertStatus", Verif.Rfc2560.CertStatus, CertStatus, .same, true⟩,
   ⟨"rfc2560.SingleResponse", Verif.Rfc2560.SingleResponse, SingleResponse, .same, true⟩,
   ⟨"rfc2560.KeyHash", Verif.Rfc2560.KeyHash, KeyHash, .same, false⟩,
   ⟨"rfc2560.ResponderID", Verif.Rfc2560.ResponderID, ResponderID, .relaxed, false⟩,
   ⟨"rfc2560.Version", Verif.Rfc2560.Version, Version, .same, false⟩,
   ⟨"rfc2560.ResponseData", Verif.Rfc2560.ResponseData, ResponseData, .relaxed, true⟩,
   ⟨"rfc2560.BasicOCSPResponse", Verif.Rfc2560.BasicOCSPResponse, BasicOCSPResponse, .relaxed, true⟩,
   ⟨"rfc2560.ResponseBytes", Verif.Rfc2560.ResponseBytes, ResponseBytes, .same, false⟩,
   ⟨"rfc2560.OCSPResponseStatus", Verif.Rfc2560.OCSPResponseStatus, OCSPResponseStatus, .same, true⟩,
   ⟨"rfc2560.OCSPResponse", Verif.Rfc2560.OCSPResponse, OCSPResponse, .same, true⟩,
   ⟨"rfc2560.Request", Verif.Rfc2560.Request, Request, .same, false⟩,
   ⟨"rfc2560.Signature", Verif.Rfc2560.Signature, Signature, .relaxed, false⟩,
   ⟨"rfc2560.TBSRequest", Verif.Rfc2560.TBSRequest, TBSRequest, (.refused [48, 6, 161, 2, 129, 0, 48, 0]), true⟩,
   ⟨"rfc2560.OCSPRequest", Verif.Rfc2560.OCSPRequest, OCSPRequest, (.refused [48, 8, 48, 6, 161, 2, 134, 0, 48, 0]), true⟩]

/-- Classes of rfc2560.py the transcription of the standard has no type for. -/
def beyond : List String :=
  []

/-- Constants of rfc2560.py and the values the standard gives them. -/
def constants : List Constant :=
  [⟨"rfc2560.id_kp_OCSPSigning", Verif.Rfc2560.id_kp_OCSPSigning, OBJECT_IDENTIFIER, .oid [1, 3, 6, 1, 5, 5, 7, 3, 9], true⟩,
   ⟨"rfc2560.id_pkix_ocsp", Verif.Rfc2560.id_pkix_ocsp, OBJECT_IDENTIFIER, .oid [1, 3, 6, 1, 5, 5, 7, 48, 1], true⟩,
   ⟨"rfc2560.id_pkix_ocsp_basic", Verif.Rfc2560.id_pkix_ocsp_basic, OBJECT_IDENTIFIER, .oid [1, 3, 6, 1, 5, 5, 7, 48, 1, 1], true⟩,
   ⟨"rfc2560.id_pkix_ocsp_nonce", Verif.Rfc2560.id_pkix_ocsp_nonce, OBJECT_IDENTIFIER, .oid [1, 3, 6, 1, 5, 5, 7, 48, 1, 2], true⟩,
   ⟨"rfc2560.id_pkix_ocsp_crl", Verif.Rfc2560.id_pkix_ocsp_crl, OBJECT_IDENTIFIER, .oid [1, 3, 6, 1, 5, 5, 7, 48, 1, 3], true⟩,
   ⟨"rfc2560.id_pkix_ocsp_response", Verif.Rfc2560.id_pkix_ocsp_response, OBJECT_IDENTIFIER, .oid [1, 3, 6, 1, 5, 5, 7, 48, 1, 4], true⟩,
   ⟨"rfc2560.id_pkix_ocsp_nocheck", Verif.Rfc2560.id_pkix_ocsp_nocheck, OBJECT_IDENTIFIER, .oid [1, 3, 6, 1, 5, 5, 7, 48, 1, 5], true⟩,
   ⟨"rfc2560.id_pkix_ocsp_archive_cutoff", Verif.Rfc2560.id_pkix_ocsp_archive_cutoff, OBJECT_IDENTIFIER, .oid [1, 3, 6, 1, 5, 5, 7, 48, 1, 6], true⟩,
   ⟨"rfc2560.id_pkix_ocsp_service_locator", Verif.Rfc2560.id_pkix_ocsp_service_locator, OBJECT_IDENTIFIER, .oid [1, 3, 6, 1, 5, 5, 7, 48, 1, 7], true⟩]

/-- Constants of rfc2560.py the transcription of the standard has no value for. -/
def others : List String :=
  []

def standard : Standard := ⟨Verif.Rfc2560.asModule, entries, beyond, constants, others⟩

end Rfc2560
end Std
end Verif
