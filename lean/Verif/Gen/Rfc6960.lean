import Verif.Py.Obj
import Verif.Gen.Rfc2560
import Verif.Gen.Rfc5280

/-! Transcription of /repo/pyasn1_modules/rfc6960.py (generated by tools/gen.py). -/

namespace Verif
namespace Rfc6960

/-- rfc6960.py:20 -/
def MAX : Py.Bound :=
  .inf

/-- rfc6960.py:25 alias of `rfc5280.AlgorithmIdentifier` -/
def AlgorithmIdentifier : Py.Obj :=
  Rfc5280.AlgorithmIdentifier

/-- rfc6960.py:26 alias of `rfc5280.AuthorityInfoAccessSyntax` -/
def AuthorityInfoAccessSyntax : Py.Obj :=
  Rfc5280.AuthorityInfoAccessSyntax

/-- rfc6960.py:27 alias of `rfc5280.Certificate` -/
def Certificate : Py.Obj :=
  Rfc5280.Certificate

/-- rfc6960.py:28 alias of `rfc5280.CertificateSerialNumber` -/
def CertificateSerialNumber : Py.Obj :=
  Rfc5280.CertificateSerialNumber

/-- rfc6960.py:29 alias of `rfc5280.CRLReason` -/
def CRLReason : Py.Obj :=
  Rfc5280.CRLReason

/-- rfc6960.py:30 alias of `rfc5280.Extensions` -/
def Extensions : Py.Obj :=
  Rfc5280.Extensions

/-- rfc6960.py:31 alias of `rfc5280.GeneralName` -/
def GeneralName : Py.Obj :=
  Rfc5280.GeneralName

/-- rfc6960.py:32 alias of `rfc5280.Name` -/
def Name : Py.Obj :=
  Rfc5280.Name

/-- rfc6960.py:34 alias of `rfc5280.id_kp` -/
def id_kp : Py.Obj :=
  Rfc5280.id_kp

/-- rfc6960.py:36 alias of `rfc5280.id_ad_ocsp` -/
def id_ad_ocsp : Py.Obj :=
  Rfc5280.id_ad_ocsp

/-- rfc6960.py:41 alias of `rfc2560.AcceptableResponses` -/
def AcceptableResponses : Py.Obj :=
  Rfc2560.AcceptableResponses

/-- rfc6960.py:42 alias of `rfc2560.ArchiveCutoff` -/
def ArchiveCutoff : Py.Obj :=
  Rfc2560.ArchiveCutoff

/-- rfc6960.py:43 alias of `rfc2560.CertStatus` -/
def CertStatus : Py.Obj :=
  Rfc2560.CertStatus

/-- rfc6960.py:44 alias of `rfc2560.KeyHash` -/
def KeyHash : Py.Obj :=
  Rfc2560.KeyHash

/-- rfc6960.py:45 alias of `rfc2560.OCSPResponse` -/
def OCSPResponse : Py.Obj :=
  Rfc2560.OCSPResponse

/-- rfc6960.py:46 alias of `rfc2560.OCSPResponseStatus` -/
def OCSPResponseStatus : Py.Obj :=
  Rfc2560.OCSPResponseStatus

/-- rfc6960.py:47 alias of `rfc2560.ResponseBytes` -/
def ResponseBytes : Py.Obj :=
  Rfc2560.ResponseBytes

/-- rfc6960.py:48 alias of `rfc2560.RevokedInfo` -/
def RevokedInfo : Py.Obj :=
  Rfc2560.RevokedInfo

/-- rfc6960.py:49 alias of `rfc2560.UnknownInfo` -/
def UnknownInfo : Py.Obj :=
  Rfc2560.UnknownInfo

/-- rfc6960.py:50 alias of `rfc2560.Version` -/
def Version : Py.Obj :=
  Rfc2560.Version

/-- rfc6960.py:52 alias of `rfc2560.id_kp_OCSPSigning` -/
def id_kp_OCSPSigning : Py.Obj :=
  Rfc2560.id_kp_OCSPSigning

/-- rfc6960.py:54 alias of `rfc2560.id_pkix_ocsp` -/
def id_pkix_ocsp : Py.Obj :=
  Rfc2560.id_pkix_ocsp

/-- rfc6960.py:55 alias of `rfc2560.id_pkix_ocsp_archive_cutoff` -/
def id_pkix_ocsp_archive_cutoff : Py.Obj :=
  Rfc2560.id_pkix_ocsp_archive_cutoff

/-- rfc6960.py:56 alias of `rfc2560.id_pkix_ocsp_basic` -/
def id_pkix_ocsp_basic : Py.Obj :=
  Rfc2560.id_pkix_ocsp_basic

/-- rfc6960.py:57 alias of `rfc2560.id_pkix_ocsp_crl` -/
def id_pkix_ocsp_crl : Py.Obj :=
  Rfc2560.id_pkix_ocsp_crl

/-- rfc6960.py:58 alias of `rfc2560.id_pkix_ocsp_nocheck` -/
def id_pkix_ocsp_nocheck : Py.Obj :=
  Rfc2560.id_pkix_ocsp_nocheck

/-- rfc6960.py:59 alias of `rfc2560.id_pkix_ocsp_nonce` -/
def id_pkix_ocsp_nonce : Py.Obj :=
  Rfc2560.id_pkix_ocsp_nonce

/-- rfc6960.py:60 alias of `rfc2560.id_pkix_ocsp_response` -/
def id_pkix_ocsp_response : Py.Obj :=
  Rfc2560.id_pkix_ocsp_response

/-- rfc6960.py:61 alias of `rfc2560.id_pkix_ocsp_service_locator` -/
def id_pkix_ocsp_service_locator : Py.Obj :=
  Rfc2560.id_pkix_ocsp_service_locator

/-- rfc6960.py:66 -/
def id_pkix_ocsp_pref_sig_algs : Py.Obj :=
  (Rfc6960.id_pkix_ocsp.addArcs [8])

/-- rfc6960.py:67 -/
def id_pkix_ocsp_extended_revoke : Py.Obj :=
  (Rfc6960.id_pkix_ocsp.addArcs [9])

/-- rfc6960.py:72-78 `class CertID(univ.Sequence)` -/
def CertID : Py.Obj :=
  Py.univ.Sequence.setComponentType (Py.NamedTypes [
    Py.NamedType "hashAlgorithm" Rfc6960.AlgorithmIdentifier.call,
    Py.NamedType "issuerNameHash" Py.univ.OctetString.call,
    Py.NamedType "issuerKeyHash" Py.univ.OctetString.call,
    Py.NamedType "serialNumber" Rfc6960.CertificateSerialNumber.call])

/-- rfc6960.py:81-90 `class SingleResponse(univ.Sequence)` -/
def SingleResponse : Py.Obj :=
  Py.univ.Sequence.setComponentType (Py.NamedTypes [
    Py.NamedType "certID" Rfc6960.CertID.call,
    Py.NamedType "certStatus" Rfc6960.CertStatus.call,
    Py.NamedType "thisUpdate" Py.useful.GeneralizedTime.call,
    Py.OptionalNamedType "nextUpdate" (Py.useful.GeneralizedTime.call.explicitTag (Py.Tag .context false 0)),
    Py.OptionalNamedType "singleExtensions" (Rfc6960.Extensions.call.explicitTag (Py.Tag .context false 1))])

/-- rfc6960.py:93-99 `class ResponderID(univ.Choice)` -/
def ResponderID : Py.Obj :=
  Py.univ.Choice.setComponentType (Py.NamedTypes [
    Py.NamedType "byName" (Rfc6960.Name.call.explicitTag (Py.Tag .context false 1)),
    Py.NamedType "byKey" (Rfc6960.KeyHash.call.explicitTag (Py.Tag .context false 2))])

/-- rfc6960.py:102-112 `class ResponseData(univ.Sequence)` -/
def ResponseData : Py.Obj :=
  Py.univ.Sequence.setComponentType (Py.NamedTypes [
    Py.DefaultedNamedType "version" ((Rfc6960.Version.call.callStr "v1").explicitTag (Py.Tag .context false 0)),
    Py.NamedType "responderID" Rfc6960.ResponderID.call,
    Py.NamedType "producedAt" Py.useful.GeneralizedTime.call,
    Py.NamedType "responses" (Py.univ.SequenceOf.call.setComponentTypeOf Rfc6960.SingleResponse.call),
    Py.OptionalNamedType "responseExtensions" (Rfc6960.Extensions.call.explicitTag (Py.Tag .context false 1))])

/-- rfc6960.py:115-123 `class BasicOCSPResponse(univ.Sequence)` -/
def BasicOCSPResponse : Py.Obj :=
  Py.univ.Sequence.setComponentType (Py.NamedTypes [
    Py.NamedType "tbsResponseData" Rfc6960.ResponseData.call,
    Py.NamedType "signatureAlgorithm" Rfc6960.AlgorithmIdentifier.call,
    Py.NamedType "signature" Py.univ.BitString.call,
    Py.OptionalNamedType "certs" ((Py.univ.SequenceOf.call.setComponentTypeOf Rfc6960.Certificate.call).explicitTag (Py.Tag .context false 0))])

/-- rfc6960.py:126-131 `class Request(univ.Sequence)` -/
def Request : Py.Obj :=
  Py.univ.Sequence.setComponentType (Py.NamedTypes [
    Py.NamedType "reqCert" Rfc6960.CertID.call,
    Py.OptionalNamedType "singleRequestExtensions" (Rfc6960.Extensions.call.explicitTag (Py.Tag .context false 0))])

/-- rfc6960.py:134-141 `class Signature(univ.Sequence)` -/
def Signature : Py.Obj :=
  Py.univ.Sequence.setComponentType (Py.NamedTypes [
    Py.NamedType "signatureAlgorithm" Rfc6960.AlgorithmIdentifier.call,
    Py.NamedType "signature" Py.univ.BitString.call,
    Py.OptionalNamedType "certs" ((Py.univ.SequenceOf.call.setComponentTypeOf Rfc6960.Certificate.call).explicitTag (Py.Tag .context false 0))])

/-- rfc6960.py:144-154 `class TBSRequest(univ.Sequence)` -/
def TBSRequest : Py.Obj :=
  Py.univ.Sequence.setComponentType (Py.NamedTypes [
    Py.DefaultedNamedType "version" ((Rfc6960.Version.call.callStr "v1").explicitTag (Py.Tag .context false 0)),
    Py.OptionalNamedType "requestorName" (Rfc6960.GeneralName.call.explicitTag (Py.Tag .context false 1)),
    Py.NamedType "requestList" (Py.univ.SequenceOf.call.setComponentTypeOf Rfc6960.Request.call),
    Py.OptionalNamedType "requestExtensions" (Rfc6960.Extensions.call.explicitTag (Py.Tag .context false 2))])

/-- rfc6960.py:157-162 `class OCSPRequest(univ.Sequence)` -/
def OCSPRequest : Py.Obj :=
  Py.univ.Sequence.setComponentType (Py.NamedTypes [
    Py.NamedType "tbsRequest" Rfc6960.TBSRequest.call,
    Py.OptionalNamedType "optionalSignature" (Rfc6960.Signature.call.explicitTag (Py.Tag .context false 0))])

/-- rfc6960.py:167-171 `class ServiceLocator(univ.Sequence)` -/
def ServiceLocator : Py.Obj :=
  Py.univ.Sequence.setComponentType (Py.NamedTypes [
    Py.NamedType "issuer" Rfc6960.Name.call,
    Py.NamedType "locator" Rfc6960.AuthorityInfoAccessSyntax.call])

/-- rfc6960.py:176-184 `class CrlID(univ.Sequence)` -/
def CrlID : Py.Obj :=
  Py.univ.Sequence.setComponentType (Py.NamedTypes [
    Py.OptionalNamedType "crlUrl" (Py.char.IA5String.call.explicitTag (Py.Tag .context false 0)),
    Py.OptionalNamedType "crlNum" (Py.univ.Integer.call.explicitTag (Py.Tag .context false 1)),
    Py.OptionalNamedType "crlTime" (Py.useful.GeneralizedTime.call.explicitTag (Py.Tag .context false 2))])

/-- rfc6960.py:187-191 `class PreferredSignatureAlgorithm(univ.Sequence)` -/
def PreferredSignatureAlgorithm : Py.Obj :=
  Py.univ.Sequence.setComponentType (Py.NamedTypes [
    Py.NamedType "sigIdentifier" Rfc6960.AlgorithmIdentifier.call,
    Py.OptionalNamedType "certIdentifier" Rfc6960.AlgorithmIdentifier.call])

/-- rfc6960.py:194-195 `class PreferredSignatureAlgorithms(univ.SequenceOf)` -/
def PreferredSignatureAlgorithms : Py.Obj :=
  Py.univ.SequenceOf.setComponentTypeOf Rfc6960.PreferredSignatureAlgorithm.call

/-- rfc6960.py:201-203 -/
def ocspResponseMap : Py.Entries :=
  [(Rfc6960.id_pkix_ocsp_basic.value, Rfc6960.BasicOCSPResponse.call.ty)]

/-- rfc6960.py:209-221 -/
def _certificateExtensionsMapUpdate : Py.Entries :=
  [(Rfc6960.id_pkix_ocsp_nocheck.value, (Py.univ.Null.call.callStr "").ty),
    (Rfc6960.id_pkix_ocsp_nonce.value, Py.univ.OctetString.call.ty),
    (Rfc6960.id_pkix_ocsp_response.value, Rfc6960.AcceptableResponses.call.ty),
    (Rfc6960.id_pkix_ocsp_service_locator.value, Rfc6960.ServiceLocator.call.ty),
    (Rfc6960.id_pkix_ocsp_pref_sig_algs.value, Rfc6960.PreferredSignatureAlgorithms.call.ty),
    (Rfc6960.id_pkix_ocsp_crl.value, Rfc6960.CrlID.call.ty),
    (Rfc6960.id_pkix_ocsp_archive_cutoff.value, Rfc6960.ArchiveCutoff.call.ty),
    (Rfc6960.id_pkix_ocsp_extended_revoke.value, (Py.univ.Null.call.callStr "").ty)]

/-- Modules of this package imported by rfc6960.py, in textual order. -/
def imports : List Py.Ident :=
  [(Py.mod 11 "rfc2560"), (Py.mod 15 "rfc5280")]

/-- Dictionary operations executed when rfc6960.py is imported, in program order. -/
def effects : List Py.Effect :=
  [.create (Py.map 117 "rfc6960.ocspResponseMap") Rfc6960.ocspResponseMap /- rfc6960.py:201-203 -/,
   .create (Py.map 118 "rfc6960._certificateExtensionsMapUpdate") Rfc6960._certificateExtensionsMapUpdate /- rfc6960.py:209-221 -/,
   .update (Py.map 48 "rfc5280.certificateExtensionsMap") Rfc6960._certificateExtensionsMapUpdate /- rfc6960.py:223 -/]

/-- ASN.1 types rfc6960.py binds at module level (final version of each name), plus nested classes. -/
def classes : List (String × Py.Obj) :=
  [("rfc6960.AlgorithmIdentifier", Rfc6960.AlgorithmIdentifier),
   ("rfc6960.AuthorityInfoAccessSyntax", Rfc6960.AuthorityInfoAccessSyntax),
   ("rfc6960.Certificate", Rfc6960.Certificate),
   ("rfc6960.CertificateSerialNumber", Rfc6960.CertificateSerialNumber),
   ("rfc6960.CRLReason", Rfc6960.CRLReason),
   ("rfc6960.Extensions", Rfc6960.Extensions),
   ("rfc6960.GeneralName", Rfc6960.GeneralName),
   ("rfc6960.Name", Rfc6960.Name),
   ("rfc6960.AcceptableResponses", Rfc6960.AcceptableResponses),
   ("rfc6960.ArchiveCutoff", Rfc6960.ArchiveCutoff),
   ("rfc6960.CertStatus", Rfc6960.CertStatus),
   ("rfc6960.KeyHash", Rfc6960.KeyHash),
   ("rfc6960.OCSPResponse", Rfc6960.OCSPResponse),
   ("rfc6960.OCSPResponseStatus", Rfc6960.OCSPResponseStatus),
   ("rfc6960.ResponseBytes", Rfc6960.ResponseBytes),
   ("rfc6960.RevokedInfo", Rfc6960.RevokedInfo),
   ("rfc6960.UnknownInfo", Rfc6960.UnknownInfo),
   ("rfc6960.Version", Rfc6960.Version),
   ("rfc6960.CertID", Rfc6960.CertID),
   ("rfc6960.SingleResponse", Rfc6960.SingleResponse),
   ("rfc6960.ResponderID", Rfc6960.ResponderID),
   ("rfc6960.ResponseData", Rfc6960.ResponseData),
   ("rfc6960.BasicOCSPResponse", Rfc6960.BasicOCSPResponse),
   ("rfc6960.Request", Rfc6960.Request),
   ("rfc6960.Signature", Rfc6960.Signature),
   ("rfc6960.TBSRequest", Rfc6960.TBSRequest),
   ("rfc6960.OCSPRequest", Rfc6960.OCSPRequest),
   ("rfc6960.ServiceLocator", Rfc6960.ServiceLocator),
   ("rfc6960.CrlID", Rfc6960.CrlID),
   ("rfc6960.PreferredSignatureAlgorithm", Rfc6960.PreferredSignatureAlgorithm),
   ("rfc6960.PreferredSignatureAlgorithms", Rfc6960.PreferredSignatureAlgorithms)]

/-- pyasn1 instances rfc6960.py binds at module level. -/
def objects : List (String × Py.Obj) :=
  [("rfc6960.id_kp", Rfc6960.id_kp),
   ("rfc6960.id_ad_ocsp", Rfc6960.id_ad_ocsp),
   ("rfc6960.id_kp_OCSPSigning", Rfc6960.id_kp_OCSPSigning),
   ("rfc6960.id_pkix_ocsp", Rfc6960.id_pkix_ocsp),
   ("rfc6960.id_pkix_ocsp_archive_cutoff", Rfc6960.id_pkix_ocsp_archive_cutoff),
   ("rfc6960.id_pkix_ocsp_basic", Rfc6960.id_pkix_ocsp_basic),
   ("rfc6960.id_pkix_ocsp_crl", Rfc6960.id_pkix_ocsp_crl),
   ("rfc6960.id_pkix_ocsp_nocheck", Rfc6960.id_pkix_ocsp_nocheck),
   ("rfc6960.id_pkix_ocsp_nonce", Rfc6960.id_pkix_ocsp_nonce),
   ("rfc6960.id_pkix_ocsp_response", Rfc6960.id_pkix_ocsp_response),
   ("rfc6960.id_pkix_ocsp_service_locator", Rfc6960.id_pkix_ocsp_service_locator),
   ("rfc6960.id_pkix_ocsp_pref_sig_algs", Rfc6960.id_pkix_ocsp_pref_sig_algs),
   ("rfc6960.id_pkix_ocsp_extended_revoke", Rfc6960.id_pkix_ocsp_extended_revoke)]

/-- pyasn1 instances rfc6960.py fills in by item assignment. -/
def protos : List (String × Py.Proto) :=
  []

/-- Every place of rfc6960.py that instantiates a class of the package: where, the class as it is
at that point, and the class as it is when the import has finished. -/
def snapshots : List Py.Snapshot :=
  [⟨"rfc6960.py:74", Rfc6960.AlgorithmIdentifier, Rfc6960.AlgorithmIdentifier⟩,
   ⟨"rfc6960.py:77", Rfc6960.CertificateSerialNumber, Rfc6960.CertificateSerialNumber⟩,
   ⟨"rfc6960.py:83", Rfc6960.CertID, Rfc6960.CertID⟩,
   ⟨"rfc6960.py:84", Rfc6960.CertStatus, Rfc6960.CertStatus⟩,
   ⟨"rfc6960.py:88", Rfc6960.Extensions, Rfc6960.Extensions⟩,
   ⟨"rfc6960.py:95", Rfc6960.Name, Rfc6960.Name⟩,
   ⟨"rfc6960.py:97", Rfc6960.KeyHash, Rfc6960.KeyHash⟩,
   ⟨"rfc6960.py:104", Rfc6960.Version, Rfc6960.Version⟩,
   ⟨"rfc6960.py:106", Rfc6960.ResponderID, Rfc6960.ResponderID⟩,
   ⟨"rfc6960.py:109", Rfc6960.SingleResponse, Rfc6960.SingleResponse⟩,
   ⟨"rfc6960.py:110", Rfc6960.Extensions, Rfc6960.Extensions⟩,
   ⟨"rfc6960.py:117", Rfc6960.ResponseData, Rfc6960.ResponseData⟩,
   ⟨"rfc6960.py:118", Rfc6960.AlgorithmIdentifier, Rfc6960.AlgorithmIdentifier⟩,
   ⟨"rfc6960.py:121", Rfc6960.Certificate, Rfc6960.Certificate⟩,
   ⟨"rfc6960.py:128", Rfc6960.CertID, Rfc6960.CertID⟩,
   ⟨"rfc6960.py:129", Rfc6960.Extensions, Rfc6960.Extensions⟩,
   ⟨"rfc6960.py:136", Rfc6960.AlgorithmIdentifier, Rfc6960.AlgorithmIdentifier⟩,
   ⟨"rfc6960.py:139", Rfc6960.Certificate, Rfc6960.Certificate⟩,
   ⟨"rfc6960.py:146", Rfc6960.Version, Rfc6960.Version⟩,
   ⟨"rfc6960.py:148", Rfc6960.GeneralName, Rfc6960.GeneralName⟩,
   ⟨"rfc6960.py:151", Rfc6960.Request, Rfc6960.Request⟩,
   ⟨"rfc6960.py:152", Rfc6960.Extensions, Rfc6960.Extensions⟩,
   ⟨"rfc6960.py:159", Rfc6960.TBSRequest, Rfc6960.TBSRequest⟩,
   ⟨"rfc6960.py:160", Rfc6960.Signature, Rfc6960.Signature⟩,
   ⟨"rfc6960.py:169", Rfc6960.Name, Rfc6960.Name⟩,
   ⟨"rfc6960.py:170", Rfc6960.AuthorityInfoAccessSyntax, Rfc6960.AuthorityInfoAccessSyntax⟩,
   ⟨"rfc6960.py:189", Rfc6960.AlgorithmIdentifier, Rfc6960.AlgorithmIdentifier⟩,
   ⟨"rfc6960.py:190", Rfc6960.AlgorithmIdentifier, Rfc6960.AlgorithmIdentifier⟩,
   ⟨"rfc6960.py:195", Rfc6960.PreferredSignatureAlgorithm, Rfc6960.PreferredSignatureAlgorithm⟩,
   ⟨"rfc6960.py:202", Rfc6960.BasicOCSPResponse, Rfc6960.BasicOCSPResponse⟩,
   ⟨"rfc6960.py:214", Rfc6960.AcceptableResponses, Rfc6960.AcceptableResponses⟩,
   ⟨"rfc6960.py:215", Rfc6960.ServiceLocator, Rfc6960.ServiceLocator⟩,
   ⟨"rfc6960.py:216", Rfc6960.PreferredSignatureAlgorithms, Rfc6960.PreferredSignatureAlgorithms⟩,
   ⟨"rfc6960.py:218", Rfc6960.CrlID, Rfc6960.CrlID⟩,
   ⟨"rfc6960.py:219", Rfc6960.ArchiveCutoff, Rfc6960.ArchiveCutoff⟩]

/-- Functions rfc6960.py defines. -/
def builders : List (String × (List Py.OidArg → Py.Obj)) :=
  []

def asModule : Py.Module :=
  { id := (Py.mod 68 "rfc6960"), imports := imports, effects := effects, classes := classes, objects := objects, protos := protos, snapshots := snapshots, builders := builders }

end Rfc6960
end Verif
