import Verif.Py.Obj
import Verif.Gen.Rfc2459

/-! Transcription of /repo/pyasn1_modules/rfc2560.py (generated by tools/gen.py). -/

namespace Verif
namespace Rfc2560

/-- rfc2560.py:37-49 `class CRLReason(univ.Enumerated)` -/
def CRLReason : Py.Obj :=
  Py.univ.Enumerated.setNamedValues (Py.NamedValues [("unspecified", 0), ("keyCompromise", 1), ("cACompromise", 2), ("affiliationChanged", 3), ("superseded", 4), ("cessationOfOperation", 5), ("certificateHold", 6), ("removeFromCRL", 8), ("privilegeWithdrawn", 9), ("aACompromise", 10)])

/-- rfc2560.py:56-57 `class GeneralName(univ.OctetString)` -/
def GeneralName : Py.Obj :=
  Py.univ.OctetString

/-- rfc2560.py:62 -/
def id_kp_OCSPSigning : Py.Obj :=
  (Py.univ.ObjectIdentifier.call.callArcs [1, 3, 6, 1, 5, 5, 7, 3, 9])

/-- rfc2560.py:63 -/
def id_pkix_ocsp : Py.Obj :=
  (Py.univ.ObjectIdentifier.call.callArcs [1, 3, 6, 1, 5, 5, 7, 48, 1])

/-- rfc2560.py:64 -/
def id_pkix_ocsp_basic : Py.Obj :=
  (Py.univ.ObjectIdentifier.call.callArcs [1, 3, 6, 1, 5, 5, 7, 48, 1, 1])

/-- rfc2560.py:65 -/
def id_pkix_ocsp_nonce : Py.Obj :=
  (Py.univ.ObjectIdentifier.call.callArcs [1, 3, 6, 1, 5, 5, 7, 48, 1, 2])

/-- rfc2560.py:66 -/
def id_pkix_ocsp_crl : Py.Obj :=
  (Py.univ.ObjectIdentifier.call.callArcs [1, 3, 6, 1, 5, 5, 7, 48, 1, 3])

/-- rfc2560.py:67 -/
def id_pkix_ocsp_response : Py.Obj :=
  (Py.univ.ObjectIdentifier.call.callArcs [1, 3, 6, 1, 5, 5, 7, 48, 1, 4])

/-- rfc2560.py:68 -/
def id_pkix_ocsp_nocheck : Py.Obj :=
  (Py.univ.ObjectIdentifier.call.callArcs [1, 3, 6, 1, 5, 5, 7, 48, 1, 5])

/-- rfc2560.py:69 -/
def id_pkix_ocsp_archive_cutoff : Py.Obj :=
  (Py.univ.ObjectIdentifier.call.callArcs [1, 3, 6, 1, 5, 5, 7, 48, 1, 6])

/-- rfc2560.py:70 -/
def id_pkix_ocsp_service_locator : Py.Obj :=
  (Py.univ.ObjectIdentifier.call.callArcs [1, 3, 6, 1, 5, 5, 7, 48, 1, 7])

/-- rfc2560.py:73-74 `class AcceptableResponses(univ.SequenceOf)` -/
def AcceptableResponses : Py.Obj :=
  Py.univ.SequenceOf.setComponentTypeOf Py.univ.ObjectIdentifier.call

/-- rfc2560.py:77-78 `class ArchiveCutoff(useful.GeneralizedTime)` -/
def ArchiveCutoff : Py.Obj :=
  Py.useful.GeneralizedTime

/-- rfc2560.py:81-82 `class UnknownInfo(univ.Null)` -/
def UnknownInfo : Py.Obj :=
  Py.univ.Null

/-- rfc2560.py:85-90 `class RevokedInfo(univ.Sequence)` -/
def RevokedInfo : Py.Obj :=
  Py.univ.Sequence.setComponentType (Py.NamedTypes [
    Py.NamedType "revocationTime" Py.useful.GeneralizedTime.call,
    Py.OptionalNamedType "revocationReason" (Rfc2560.CRLReason.call.explicitTag (Py.Tag .context false 0))])

/-- rfc2560.py:93-99 `class CertID(univ.Sequence)` -/
def CertID : Py.Obj :=
  Py.univ.Sequence.setComponentType (Py.NamedTypes [
    Py.NamedType "hashAlgorithm" Rfc2459.AlgorithmIdentifier.call,
    Py.NamedType "issuerNameHash" Py.univ.OctetString.call,
    Py.NamedType "issuerKeyHash" Py.univ.OctetString.call,
    Py.NamedType "serialNumber" Rfc2459.CertificateSerialNumber.call])

/-- rfc2560.py:102-110 `class CertStatus(univ.Choice)` -/
def CertStatus : Py.Obj :=
  Py.univ.Choice.setComponentType (Py.NamedTypes [
    Py.NamedType "good" (Py.univ.Null.call.implicitTag (Py.Tag .context false 0)),
    Py.NamedType "revoked" (Rfc2560.RevokedInfo.call.implicitTag (Py.Tag .context false 1)),
    Py.NamedType "unknown" (Rfc2560.UnknownInfo.call.implicitTag (Py.Tag .context false 2))])

/-- rfc2560.py:113-122 `class SingleResponse(univ.Sequence)` -/
def SingleResponse : Py.Obj :=
  Py.univ.Sequence.setComponentType (Py.NamedTypes [
    Py.NamedType "certID" Rfc2560.CertID.call,
    Py.NamedType "certStatus" Rfc2560.CertStatus.call,
    Py.NamedType "thisUpdate" Py.useful.GeneralizedTime.call,
    Py.OptionalNamedType "nextUpdate" (Py.useful.GeneralizedTime.call.explicitTag (Py.Tag .context false 0)),
    Py.OptionalNamedType "singleExtensions" (Rfc2459.Extensions.call.explicitTag (Py.Tag .context false 1))])

/-- rfc2560.py:125-126 `class KeyHash(univ.OctetString)` -/
def KeyHash : Py.Obj :=
  Py.univ.OctetString

/-- rfc2560.py:129-135 `class ResponderID(univ.Choice)` -/
def ResponderID : Py.Obj :=
  Py.univ.Choice.setComponentType (Py.NamedTypes [
    Py.NamedType "byName" (Rfc2459.Name.call.explicitTag (Py.Tag .context false 1)),
    Py.NamedType "byKey" (Rfc2560.KeyHash.call.explicitTag (Py.Tag .context false 2))])

/-- rfc2560.py:138-139 `class Version(univ.Integer)` -/
def Version : Py.Obj :=
  Py.univ.Integer.setNamedValues (Py.NamedValues [("v1", 0)])

/-- rfc2560.py:142-151 `class ResponseData(univ.Sequence)` -/
def ResponseData : Py.Obj :=
  Py.univ.Sequence.setComponentType (Py.NamedTypes [
    Py.DefaultedNamedType "version" ((Rfc2560.Version.call.callStr "v1").explicitTag (Py.Tag .context false 0)),
    Py.NamedType "responderID" Rfc2560.ResponderID.call,
    Py.NamedType "producedAt" Py.useful.GeneralizedTime.call,
    Py.NamedType "responses" (Py.univ.SequenceOf.call.setComponentTypeOf Rfc2560.SingleResponse.call),
    Py.OptionalNamedType "responseExtensions" (Rfc2459.Extensions.call.explicitTag (Py.Tag .context false 1))])

/-- rfc2560.py:154-161 `class BasicOCSPResponse(univ.Sequence)` -/
def BasicOCSPResponse : Py.Obj :=
  Py.univ.Sequence.setComponentType (Py.NamedTypes [
    Py.NamedType "tbsResponseData" Rfc2560.ResponseData.call,
    Py.NamedType "signatureAlgorithm" Rfc2459.AlgorithmIdentifier.call,
    Py.NamedType "signature" Py.univ.BitString.call,
    Py.OptionalNamedType "certs" ((Py.univ.SequenceOf.call.setComponentTypeOf Rfc2459.Certificate.call).explicitTag (Py.Tag .context false 0))])

/-- rfc2560.py:164-168 `class ResponseBytes(univ.Sequence)` -/
def ResponseBytes : Py.Obj :=
  Py.univ.Sequence.setComponentType (Py.NamedTypes [
    Py.NamedType "responseType" Py.univ.ObjectIdentifier.call,
    Py.NamedType "response" Py.univ.OctetString.call])

/-- rfc2560.py:171-180 `class OCSPResponseStatus(univ.Enumerated)` -/
def OCSPResponseStatus : Py.Obj :=
  Py.univ.Enumerated.setNamedValues (Py.NamedValues [("successful", 0), ("malformedRequest", 1), ("internalError", 2), ("tryLater", 3), ("undefinedStatus", 4), ("sigRequired", 5), ("unauthorized", 6)])

/-- rfc2560.py:183-188 `class OCSPResponse(univ.Sequence)` -/
def OCSPResponse : Py.Obj :=
  Py.univ.Sequence.setComponentType (Py.NamedTypes [
    Py.NamedType "responseStatus" Rfc2560.OCSPResponseStatus.call,
    Py.OptionalNamedType "responseBytes" (Rfc2560.ResponseBytes.call.explicitTag (Py.Tag .context false 0))])

/-- rfc2560.py:191-196 `class Request(univ.Sequence)` -/
def Request : Py.Obj :=
  Py.univ.Sequence.setComponentType (Py.NamedTypes [
    Py.NamedType "reqCert" Rfc2560.CertID.call,
    Py.OptionalNamedType "singleRequestExtensions" (Rfc2459.Extensions.call.explicitTag (Py.Tag .context false 0))])

/-- rfc2560.py:199-205 `class Signature(univ.Sequence)` -/
def Signature : Py.Obj :=
  Py.univ.Sequence.setComponentType (Py.NamedTypes [
    Py.NamedType "signatureAlgorithm" Rfc2459.AlgorithmIdentifier.call,
    Py.NamedType "signature" Py.univ.BitString.call,
    Py.OptionalNamedType "certs" ((Py.univ.SequenceOf.call.setComponentTypeOf Rfc2459.Certificate.call).explicitTag (Py.Tag .context false 0))])

/-- rfc2560.py:208-217 `class TBSRequest(univ.Sequence)` -/
def TBSRequest : Py.Obj :=
  Py.univ.Sequence.setComponentType (Py.NamedTypes [
    Py.DefaultedNamedType "version" ((Rfc2560.Version.call.callStr "v1").explicitTag (Py.Tag .context false 0)),
    Py.OptionalNamedType "requestorName" (Rfc2560.GeneralName.call.explicitTag (Py.Tag .context false 1)),
    Py.NamedType "requestList" (Py.univ.SequenceOf.call.setComponentTypeOf Rfc2560.Request.call),
    Py.OptionalNamedType "requestExtensions" (Rfc2459.Extensions.call.explicitTag (Py.Tag .context false 2))])

/-- rfc2560.py:220-225 `class OCSPRequest(univ.Sequence)` -/
def OCSPRequest : Py.Obj :=
  Py.univ.Sequence.setComponentType (Py.NamedTypes [
    Py.NamedType "tbsRequest" Rfc2560.TBSRequest.call,
    Py.OptionalNamedType "optionalSignature" (Rfc2560.Signature.call.explicitTag (Py.Tag .context false 0))])

/-- Modules of this package imported by rfc2560.py, in textual order. -/
def imports : List Py.Ident :=
  [(Py.mod 6 "rfc2459")]

/-- Dictionary operations executed when rfc2560.py is imported, in program order. -/
def effects : List Py.Effect :=
  []

/-- ASN.1 types rfc2560.py binds at module level (final version of each name), plus nested classes. -/
def classes : List (String × Py.Obj) :=
  [("rfc2560.CRLReason", Rfc2560.CRLReason),
   ("rfc2560.GeneralName", Rfc2560.GeneralName),
   ("rfc2560.AcceptableResponses", Rfc2560.AcceptableResponses),
   ("rfc2560.ArchiveCutoff", Rfc2560.ArchiveCutoff),
   ("rfc2560.UnknownInfo", Rfc2560.UnknownInfo),
   ("rfc2560.RevokedInfo", Rfc2560.RevokedInfo),
   ("rfc2560.CertID", Rfc2560.CertID),
   ("rfc2560.CertStatus", Rfc2560.CertStatus),
   ("rfc2560.SingleResponse", Rfc2560.SingleResponse),
   ("rfc2560.KeyHash", Rfc2560.KeyHash),
   ("rfc2560.ResponderID", Rfc2560.ResponderID),
   ("rfc2560.Version", Rfc2560.Version),
   ("rfc2560.ResponseData", Rfc2560.ResponseData),
   ("rfc2560.BasicOCSPResponse", Rfc2560.BasicOCSPResponse),
   ("rfc2560.ResponseBytes", Rfc2560.ResponseBytes),
   ("rfc2560.OCSPResponseStatus", Rfc2560.OCSPResponseStatus),
   ("rfc2560.OCSPResponse", Rfc2560.OCSPResponse),
   ("rfc2560.Request", Rfc2560.Request),
   ("rfc2560.Signature", Rfc2560.Signature),
   ("rfc2560.TBSRequest", Rfc2560.TBSRequest),
   ("rfc2560.OCSPRequest", Rfc2560.OCSPRequest)]

/-- pyasn1 instances rfc2560.py binds at module level. -/
def objects : List (String × Py.Obj) :=
  [("rfc2560.id_kp_OCSPSigning", Rfc2560.id_kp_OCSPSigning),
   ("rfc2560.id_pkix_ocsp", Rfc2560.id_pkix_ocsp),
   ("rfc2560.id_pkix_ocsp_basic", Rfc2560.id_pkix_ocsp_basic),
   ("rfc2560.id_pkix_ocsp_nonce", Rfc2560.id_pkix_ocsp_nonce),
   ("rfc2560.id_pkix_ocsp_crl", Rfc2560.id_pkix_ocsp_crl),
   ("rfc2560.id_pkix_ocsp_response", Rfc2560.id_pkix_ocsp_response),
   ("rfc2560.id_pkix_ocsp_nocheck", Rfc2560.id_pkix_ocsp_nocheck),
   ("rfc2560.id_pkix_ocsp_archive_cutoff", Rfc2560.id_pkix_ocsp_archive_cutoff),
   ("rfc2560.id_pkix_ocsp_service_locator", Rfc2560.id_pkix_ocsp_service_locator)]

/-- pyasn1 instances rfc2560.py fills in by item assignment. -/
def protos : List (String × Py.Proto) :=
  []

/-- Every place of rfc2560.py that instantiates a class of the package: where, the class as it is
at that point, and the class as it is when the import has finished. -/
def snapshots : List Py.Snapshot :=
  [⟨"rfc2560.py:88", Rfc2560.CRLReason, Rfc2560.CRLReason⟩,
   ⟨"rfc2560.py:95", Rfc2459.AlgorithmIdentifier, Rfc2459.AlgorithmIdentifier⟩,
   ⟨"rfc2560.py:98", Rfc2459.CertificateSerialNumber, Rfc2459.CertificateSerialNumber⟩,
   ⟨"rfc2560.py:107", Rfc2560.RevokedInfo, Rfc2560.RevokedInfo⟩,
   ⟨"rfc2560.py:109", Rfc2560.UnknownInfo, Rfc2560.UnknownInfo⟩,
   ⟨"rfc2560.py:115", Rfc2560.CertID, Rfc2560.CertID⟩,
   ⟨"rfc2560.py:116", Rfc2560.CertStatus, Rfc2560.CertStatus⟩,
   ⟨"rfc2560.py:120", Rfc2459.Extensions, Rfc2459.Extensions⟩,
   ⟨"rfc2560.py:132", Rfc2459.Name, Rfc2459.Name⟩,
   ⟨"rfc2560.py:134", Rfc2560.KeyHash, Rfc2560.KeyHash⟩,
   ⟨"rfc2560.py:144", Rfc2560.Version, Rfc2560.Version⟩,
   ⟨"rfc2560.py:146", Rfc2560.ResponderID, Rfc2560.ResponderID⟩,
   ⟨"rfc2560.py:148", Rfc2560.SingleResponse, Rfc2560.SingleResponse⟩,
   ⟨"rfc2560.py:149", Rfc2459.Extensions, Rfc2459.Extensions⟩,
   ⟨"rfc2560.py:156", Rfc2560.ResponseData, Rfc2560.ResponseData⟩,
   ⟨"rfc2560.py:157", Rfc2459.AlgorithmIdentifier, Rfc2459.AlgorithmIdentifier⟩,
   ⟨"rfc2560.py:159", Rfc2459.Certificate, Rfc2459.Certificate⟩,
   ⟨"rfc2560.py:185", Rfc2560.OCSPResponseStatus, Rfc2560.OCSPResponseStatus⟩,
   ⟨"rfc2560.py:186", Rfc2560.ResponseBytes, Rfc2560.ResponseBytes⟩,
   ⟨"rfc2560.py:193", Rfc2560.CertID, Rfc2560.CertID⟩,
   ⟨"rfc2560.py:194", Rfc2459.Extensions, Rfc2459.Extensions⟩,
   ⟨"rfc2560.py:201", Rfc2459.AlgorithmIdentifier, Rfc2459.AlgorithmIdentifier⟩,
   ⟨"rfc2560.py:203", Rfc2459.Certificate, Rfc2459.Certificate⟩,
   ⟨"rfc2560.py:210", Rfc2560.Version, Rfc2560.Version⟩,
   ⟨"rfc2560.py:212", Rfc2560.GeneralName, Rfc2560.GeneralName⟩,
   ⟨"rfc2560.py:214", Rfc2560.Request, Rfc2560.Request⟩,
   ⟨"rfc2560.py:215", Rfc2459.Extensions, Rfc2459.Extensions⟩,
   ⟨"rfc2560.py:222", Rfc2560.TBSRequest, Rfc2560.TBSRequest⟩,
   ⟨"rfc2560.py:223", Rfc2560.Signature, Rfc2560.Signature⟩]

/-- Functions rfc2560.py defines. -/
def builders : List (String × (List Py.OidArg → Py.Obj)) :=
  []

def asModule : Py.Module :=
  { id := (Py.mod 11 "rfc2560"), imports := imports, effects := effects, classes := classes, objects := objects, protos := protos, snapshots := snapshots, builders := builders }

end Rfc2560
end Verif
