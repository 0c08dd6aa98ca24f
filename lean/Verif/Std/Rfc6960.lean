import Verif.Spec.Grade
import Verif.Gen.Rfc6960
import Verif.Std.Rfc5280

/-! The ASN.1 of tools/std/rfc6960.asn1 (generated by tools/stdgen.py). -/

namespace Verif
namespace Std
namespace Rfc6960

open Asn1 Spec.X680

/-- `Version ::=` -/
def Version : Ty :=
  named [("v1", 0)] INTEGER

/-- `CertID ::=` -/
def CertID : Ty :=
  SEQUENCE [
    mandatory "hashAlgorithm" Std.Rfc5280.AlgorithmIdentifier,
    mandatory "issuerNameHash" OCTET_STRING,
    mandatory "issuerKeyHash" OCTET_STRING,
    mandatory "serialNumber" Std.Rfc5280.CertificateSerialNumber]

/-- `Request ::=` -/
def Request : Ty :=
  SEQUENCE [
    mandatory "reqCert" CertID,
    optional "singleRequestExtensions" (explicit .context 0 Std.Rfc5280.Extensions)]

/-- `TBSRequest ::=` -/
def TBSRequest : Ty :=
  SEQUENCE [
    default "version" (explicit .context 0 Version) (.int 0),
    optional "requestorName" (explicit .context 1 Std.Rfc5280.GeneralName),
    mandatory "requestList" (SEQUENCE_OF Request),
    optional "requestExtensions" (explicit .context 2 Std.Rfc5280.Extensions)]

/-- `Signature ::=` -/
def Signature : Ty :=
  SEQUENCE [
    mandatory "signatureAlgorithm" Std.Rfc5280.AlgorithmIdentifier,
    mandatory "signature" BIT_STRING,
    optional "certs" (explicit .context 0 (SEQUENCE_OF Std.Rfc5280.Certificate))]

/-- `OCSPRequest ::=` -/
def OCSPRequest : Ty :=
  SEQUENCE [
    mandatory "tbsRequest" TBSRequest,
    optional "optionalSignature" (explicit .context 0 Signature)]

/-- `OCSPResponseStatus ::=` -/
def OCSPResponseStatus : Ty :=
  named [("successful", 0), ("malformedRequest", 1), ("internalError", 2), ("tryLater", 3), ("sigRequired", 5), ("unauthorized", 6)] ENUMERATED

/-- `ResponseBytes ::=` -/
def ResponseBytes : Ty :=
  SEQUENCE [
    mandatory "responseType" OBJECT_IDENTIFIER,
    mandatory "response" OCTET_STRING]

/-- `OCSPResponse ::=` -/
def OCSPResponse : Ty :=
  SEQUENCE [
    mandatory "responseStatus" OCSPResponseStatus,
    optional "responseBytes" (explicit .context 0 ResponseBytes)]

/-- `KeyHash ::=` -/
def KeyHash : Ty :=
  OCTET_STRING

/-- `ResponderID ::=` -/
def ResponderID : Ty :=
  CHOICE [
    mandatory "byName" (explicit .context 1 Std.Rfc5280.Name),
    mandatory "byKey" (explicit .context 2 KeyHash)]

/-- `RevokedInfo ::=` -/
def RevokedInfo : Ty :=
  SEQUENCE [
    mandatory "revocationTime" GeneralizedTime,
    optional "revocationReason" (explicit .context 0 Std.Rfc5280.CRLReason)]

/-- `UnknownInfo ::=` -/
def UnknownInfo : Ty :=
  NULL

/-- `CertStatus ::=` -/
def CertStatus : Ty :=
  CHOICE [
    mandatory "good" (implicit .context 0 NULL),
    mandatory "revoked" (implicit .context 1 RevokedInfo),
    mandatory "unknown" (implicit .context 2 UnknownInfo)]

/-- `SingleResponse ::=` -/
def SingleResponse : Ty :=
  SEQUENCE [
    mandatory "certID" CertID,
    mandatory "certStatus" CertStatus,
    mandatory "thisUpdate" GeneralizedTime,
    optional "nextUpdate" (explicit .context 0 GeneralizedTime),
    optional "singleExtensions" (explicit .context 1 Std.Rfc5280.Extensions)]

/-- `ResponseData ::=` -/
def ResponseData : Ty :=
  SEQUENCE [
    default "version" (explicit .context 0 Version) (.int 0),
    mandatory "responderID" ResponderID,
    mandatory "producedAt" GeneralizedTime,
    mandatory "responses" (SEQUENCE_OF SingleResponse),
    optional "responseExtensions" (explicit .context 1 Std.Rfc5280.Extensions)]

/-- `BasicOCSPResponse ::=` -/
def BasicOCSPResponse : Ty :=
  SEQUENCE [
    mandatory "tbsResponseData" ResponseData,
    mandatory "signatureAlgorithm" Std.Rfc5280.AlgorithmIdentifier,
    mandatory "signature" BIT_STRING,
    optional "certs" (explicit .context 0 (SEQUENCE_OF Std.Rfc5280.Certificate))]

/-- `ArchiveCutoff ::=` -/
def ArchiveCutoff : Ty :=
  GeneralizedTime

/-- `AcceptableResponses ::=` -/
def AcceptableResponses : Ty :=
  SEQUENCE_OF OBJECT_IDENTIFIER

/-- `ServiceLocator ::=` -/
def ServiceLocator : Ty :=
  SEQUENCE [
    mandatory "issuer" Std.Rfc5280.Name,
    mandatory "locator" Std.Rfc5280.AuthorityInfoAccessSyntax]

/-- `PreferredSignatureAlgorithm ::=` -/
def PreferredSignatureAlgorithm : Ty :=
  SEQUENCE [
    mandatory "sigIdentifier" Std.Rfc5280.AlgorithmIdentifier,
    optional "certIdentifier" Std.Rfc5280.AlgorithmIdentifier]

/-- `PreferredSignatureAlgorithms ::=` -/
def PreferredSignatureAlgorithms : Ty :=
  SEQUENCE_OF PreferredSignatureAlgorithm

/-- `Nonce ::=` -/
def Nonce : Ty :=
  OCTET_STRING

/-- `CrlID ::=` -/
def CrlID : Ty :=
  SEQUENCE [
    optional "crlUrl" (explicit .context 0 IA5String),
    optional "crlNum" (explicit .context 1 INTEGER),
    optional "crlTime" (explicit .context 2 GeneralizedTime)]

/-- Classes of rfc6960.py and the types of the standard they implement. -/
def entries : List Entry :=
  [⟨"rfc6960.AlgorithmIdentifier", Verif.Rfc6960.AlgorithmIdentifier, Std.Rfc5280.AlgorithmIdentifier, .same, false⟩,
   ⟨"rfc6960.AuthorityInfoAccessSyntax", Verif.Rfc6960.AuthorityInfoAccessSyntax, Std.Rfc5280.AuthorityInfoAccessSyntax, .same, false⟩,
   ⟨"rfc6960.Certificate", Verif.Rfc6960.Certificate, Std.Rfc5280.Certificate, .same, false⟩,
   ⟨"rfc6960.CertificateSerialNumber", Verif.Rfc6960.CertificateSerialNumber, Std.Rfc5280.CertificateSerialNumber, .same, false⟩,
   ⟨"rfc6960.CRLReason", Verif.Rfc6960.CRLReason, Std.Rfc5280.CRLReason, .same, false⟩,
   ⟨"rfc6960.Extensions", Verif.Rfc6960.Extensions, Std.Rfc5280.Extensions, .same, false⟩,
   ⟨"rfc6960.GeneralName", Verif.Rfc6960.GeneralName, Std.Rfc5280.GeneralName, .same, false⟩,
   ⟨"rfc6960.Name", Verif.Rfc6960.Name, Std.Rfc5280.Name, .same, false⟩,
   ⟨"rfc6960.AcceptableResponses", Verif.Rfc6960.AcceptableResponses, AcceptableResponses, .same, false⟩,
   ⟨"rfc6960.ArchiveCutoff", Verif.Rfc6960.ArchiveCutoff, ArchiveCutoff, .same, false⟩,
   ⟨"rfc6960.CertStatus", Verif.Rfc6960.CertStatus, CertStatus, .same, false⟩,
   ⟨"rfc6960.KeyHash", Verif.Rfc6960.KeyHash, KeyHash, .same, false⟩,
   ⟨"rfc6960.OCSPResponse", Verif.Rfc6960.OCSPResponse, OCSPResponse, .same, true⟩,
   ⟨"rfc6960.OCSPResponseStatus", Verif.Rfc6960.OCSPResponseStatus, OCSPResponseStatus, .same, true⟩,
   ⟨"rfc6960.ResponseBytes", Verif.Rfc6960.ResponseBytes, ResponseBytes, .same, false⟩,
   ⟨"rfc6960.RevokedInfo", Verif.Rfc6960.RevokedInfo, RevokedInfo, .same, false⟩,
   ⟨"rfc6960.UnknownInfo", Verif.Rfc6960.UnknownInfo, UnknownInfo, .same, false⟩,
   ⟨"rfc6960.Version", Verif.Rfc6960.Version, Version, .same, false⟩,
   ⟨"rfc6960.CertID", Verif.Rfc6960.CertID, CertID, .same, false⟩,
   ⟨"rfc6960.SingleResponse", Verif.Rfc6960.SingleResponse, SingleResponse, .same, false⟩,
   ⟨"rfc6960.ResponderID", Verif.Rfc6960.ResponderID, ResponderID, .same, false⟩,
   ⟨"rfc6960.ResponseData", Verif.Rfc6960.ResponseData, ResponseData, .same, false⟩,
   ⟨"rfc6960.BasicOCSPResponse", Verif.Rfc6960.BasicOCSPResponse, BasicOCSPResponse, .same, false⟩,
   ⟨"rfc6960.Request", Verif.Rfc6960.Request, Request, .same, false⟩,
   ⟨"rfc6960.Signature", Verif.Rfc6960.Signature, Signature, .same, false⟩,
   ⟨"rfc6960.TBSRequest", Verif.Rfc6960.TBSRequest, TBSRequest, .same, false⟩,
   ⟨"rfc6960.OCSPRequest", Verif.Rfc6960.OCSPRequest, OCSPRequest, .same, false⟩,
   ⟨"rfc6960.ServiceLocator", Verif.Rfc6960.ServiceLocator, ServiceLocator, .same, false⟩,
   ⟨"rfc6960.CrlID", Verif.Rfc6960.CrlID, CrlID, .same, false⟩,
   ⟨"rfc6960.PreferredSignatureAlgorithm", Verif.Rfc6960.PreferredSignatureAlgorithm, PreferredSignatureAlgorithm, .same, false⟩,
   ⟨"rfc6960.PreferredSignatureAlgorithms", Verif.Rfc6960.PreferredSignatureAlgorithms, PreferredSignatureAlgorithms, .same, false⟩]

/-- Classes of rfc6960.py the transcription of the standard has no type for. -/
def beyond : List String :=
  []

/-- Constants of rfc6960.py and the values the standard gives them. -/
def constants : List Constant :=
  [⟨"rfc6960.id_kp", Verif.Rfc6960.id_kp, OBJECT_IDENTIFIER, .oid [1, 3, 6, 1, 5, 5, 7, 3], true⟩,
   ⟨"rfc6960.id_ad_ocsp", Verif.Rfc6960.id_ad_ocsp, OBJECT_IDENTIFIER, .oid [1, 3, 6, 1, 5, 5, 7, 48, 1], true⟩,
   ⟨"rfc6960.id_kp_OCSPSigning", Verif.Rfc6960.id_kp_OCSPSigning, OBJECT_IDENTIFIER, .oid [1, 3, 6, 1, 5, 5, 7, 3, 9], true⟩,
   ⟨"rfc6960.id_pkix_ocsp", Verif.Rfc6960.id_pkix_ocsp, OBJECT_IDENTIFIER, .oid [1, 3, 6, 1, 5, 5, 7, 48, 1], true⟩,
   ⟨"rfc6960.id_pkix_ocsp_archive_cutoff", Verif.Rfc6960.id_pkix_ocsp_archive_cutoff, OBJECT_IDENTIFIER, .oid [1, 3, 6, 1, 5, 5, 7, 48, 1, 6], true⟩,
   ⟨"rfc6960.id_pkix_ocsp_basic", Verif.Rfc6960.id_pkix_ocsp_basic, OBJECT_IDENTIFIER, .oid [1, 3, 6, 1, 5, 5, 7, 48, 1, 1], true⟩,
   ⟨"rfc6960.id_pkix_ocsp_crl", Verif.Rfc6960.id_pkix_ocsp_crl, OBJECT_IDENTIFIER, .oid [1, 3, 6, 1, 5, 5, 7, 48, 1, 3], true⟩,
   ⟨"rfc6960.id_pkix_ocsp_nocheck", Verif.Rfc6960.id_pkix_ocsp_nocheck, OBJECT_IDENTIFIER, .oid [1, 3, 6, 1, 5, 5, 7, 48, 1, 5], true⟩,
   ⟨"rfc6960.id_pkix_ocsp_nonce", Verif.Rfc6960.id_pkix_ocsp_nonce, OBJECT_IDENTIFIER, .oid [1, 3, 6, 1, 5, 5, 7, 48, 1, 2], true⟩,
   ⟨"rfc6960.id_pkix_ocsp_response", Verif.Rfc6960.id_pkix_ocsp_response, OBJECT_IDENTIFIER, .oid [1, 3, 6, 1, 5, 5, 7, 48, 1, 4], true⟩,
   ⟨"rfc6960.id_pkix_ocsp_service_locator", Verif.Rfc6960.id_pkix_ocsp_service_locator, OBJECT_IDENTIFIER, .oid [1, 3, 6, 1, 5, 5, 7, 48, 1, 7], true⟩,
   ⟨"rfc6960.id_pkix_ocsp_pref_sig_algs", Verif.Rfc6960.id_pkix_ocsp_pref_sig_algs, OBJECT_IDENTIFIER, .oid [1, 3, 6, 1, 5, 5, 7, 48, 1, 8], true⟩,
   ⟨"rfc6960.id_pkix_ocsp_extended_revoke", Verif.Rfc6960.id_pkix_ocsp_extended_revoke, OBJECT_IDENTIFIER, .oid [1, 3, 6, 1, 5, 5, 7, 48, 1, 9], true⟩]

/-- Constants of rfc6960.py the transcription of the standard has no value for. -/
def others : List String :=
  []

def standard : Standard := ⟨Verif.Rfc6960.asModule, entries, beyond, constants, others⟩

end Rfc6960
end Std
end Verif
