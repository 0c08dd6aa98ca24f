import Verif.Spec.Grade
import Verif.Gen.Rfc6402
import Verif.Std.Rfc4211
import Verif.Std.Rfc5280
import Verif.Std.Rfc5652

/-! The ASN.1 of tools/std/rfc6402.asn1 (generated by tools/stdgen.py). -/

namespace Verif
namespace Std
namespace Rfc6402

open Asn1 Spec.X680

/-- `AttributeValue ::=` -/
def AttributeValue : Ty :=
  ANY

/-- `BodyPartID ::=` -/
def BodyPartID : Ty :=
  constrained (RANGE 0 4294967295) INTEGER

/-- `TaggedAttribute ::=` -/
def TaggedAttribute : Ty :=
  SEQUENCE [
    mandatory "bodyPartID" BodyPartID,
    mandatory "attrType" OBJECT_IDENTIFIER,
    mandatory "attrValues" (SET_OF AttributeValue)]

/-- `CertificationRequest ::=` -/
def CertificationRequest : Ty :=
  SEQUENCE [
    mandatory "certificationRequestInfo" (SEQUENCE [
      mandatory "version" INTEGER,
      mandatory "subject" Std.Rfc5280.Name,
      mandatory "subjectPublicKeyInfo" (SEQUENCE [
        mandatory "algorithm" Std.Rfc5280.AlgorithmIdentifier,
        mandatory "subjectPublicKey" BIT_STRING]),
      mandatory "attributes" (implicit .context 0 (SET_OF Std.Rfc5652.Attribute))]),
    mandatory "signatureAlgorithm" Std.Rfc5280.AlgorithmIdentifier,
    mandatory "signature" BIT_STRING]

/-- `TaggedCertificationRequest ::=` -/
def TaggedCertificationRequest : Ty :=
  SEQUENCE [
    mandatory "bodyPartID" BodyPartID,
    mandatory "certificationRequest" CertificationRequest]

/-- `TaggedRequest ::=` -/
def TaggedRequest : Ty :=
  CHOICE [
    mandatory "tcr" (implicit .context 0 TaggedCertificationRequest),
    mandatory "crm" (implicit .context 1 Std.Rfc4211.CertReqMsg),
    mandatory "orm" (implicit .context 2 (SEQUENCE [
      mandatory "bodyPartID" BodyPartID,
      mandatory "requestMessageType" OBJECT_IDENTIFIER,
      mandatory "requestMessageValue" ANY]))]

/-- `TaggedContentInfo ::=` -/
def TaggedContentInfo : Ty :=
  SEQUENCE [
    mandatory "bodyPartID" BodyPartID,
    mandatory "contentInfo" Std.Rfc5652.ContentInfo]

/-- `OtherMsg ::=` -/
def OtherMsg : Ty :=
  SEQUENCE [
    mandatory "bodyPartID" BodyPartID,
    mandatory "otherMsgType" OBJECT_IDENTIFIER,
    mandatory "otherMsgValue" ANY]

/-- `PKIData ::=` -/
def PKIData : Ty :=
  SEQUENCE [
    mandatory "controlSequence" (constrained (SIZE_MAX 0) (SEQUENCE_OF TaggedAttribute)),
    mandatory "reqSequence" (constrained (SIZE_MAX 0) (SEQUENCE_OF TaggedRequest)),
    mandatory "cmsSequence" (constrained (SIZE_MAX 0) (SEQUENCE_OF TaggedContentInfo)),
    mandatory "otherMsgSequence" (constrained (SIZE_MAX 0) (SEQUENCE_OF OtherMsg))]

/-- `ResponseBody ::=` -/
def ResponseBody : Ty :=
  SEQUENCE [
    mandatory "controlSequence" (constrained (SIZE_MAX 0) (SEQUENCE_OF TaggedAttribute)),
    mandatory "cmsSequence" (constrained (SIZE_MAX 0) (SEQUENCE_OF TaggedContentInfo)),
    mandatory "otherMsgSequence" (constrained (SIZE_MAX 0) (SEQUENCE_OF OtherMsg))]

/-- `PKIResponse ::=` -/
def PKIResponse : Ty :=
  ResponseBody

/-- `CMCStatus ::=` -/
def CMCStatus : Ty :=
  named [("success", 0), ("failed", 2), ("pending", 3), ("noSupport", 4), ("confirmRequired", 5), ("popRequired", 6), ("partial", 7)] INTEGER

/-- `CMCFailInfo ::=` -/
def CMCFailInfo : Ty :=
  named [("badAlg", 0), ("badMessageCheck", 1), ("badRequest", 2), ("badTime", 3), ("badCertId", 4), ("unsupportedExt", 5), ("mustArchiveKeys", 6), ("badIdentity", 7), ("popRequired", 8), ("popFailed", 9), ("noKeyReuse", 10), ("internalCAError", 11), ("tryLater", 12), ("authDataFail", 13)] INTEGER

/-- `PendInfo ::=` -/
def PendInfo : Ty :=
  SEQUENCE [
    mandatory "pendToken" OCTET_STRING,
    mandatory "pendTime" GeneralizedTime]

/-- `CMCStatusInfo ::=` -/
def CMCStatusInfo : Ty :=
  SEQUENCE [
    mandatory "cMCStatus" CMCStatus,
    mandatory "bodyList" (constrained (SIZE_MAX 1) (SEQUENCE_OF BodyPartID)),
    optional "statusString" UTF8String,
    optional "otherInfo" (CHOICE [
      mandatory "failInfo" CMCFailInfo,
      mandatory "pendInfo" PendInfo])]

/-- `AddExtensions ::=` -/
def AddExtensions : Ty :=
  SEQUENCE [
    mandatory "pkiDataReference" BodyPartID,
    mandatory "certReferences" (SEQUENCE_OF BodyPartID),
    mandatory "extensions" (SEQUENCE_OF Std.Rfc5280.Extension)]

/-- `EncryptedPOP ::=` -/
def EncryptedPOP : Ty :=
  SEQUENCE [
    mandatory "request" TaggedRequest,
    mandatory "cms" Std.Rfc5652.ContentInfo,
    mandatory "thePOPAlgID" Std.Rfc5280.AlgorithmIdentifier,
    mandatory "witnessAlgID" Std.Rfc5280.AlgorithmIdentifier,
    mandatory "witness" OCTET_STRING]

/-- `DecryptedPOP ::=` -/
def DecryptedPOP : Ty :=
  SEQUENCE [
    mandatory "bodyPartID" BodyPartID,
    mandatory "thePOPAlgID" Std.Rfc5280.AlgorithmIdentifier,
    mandatory "thePOP" OCTET_STRING]

/-- `LraPopWitness ::=` -/
def LraPopWitness : Ty :=
  SEQUENCE [
    mandatory "pkiDataBodyid" BodyPartID,
    mandatory "bodyIds" (SEQUENCE_OF BodyPartID)]

/-- `GetCert ::=` -/
def GetCert : Ty :=
  SEQUENCE [
    mandatory "issuerName" Std.Rfc5280.GeneralName,
    mandatory "serialNumber" INTEGER]

/-- `GetCRL ::=` -/
def GetCRL : Ty :=
  SEQUENCE [
    mandatory "issuerName" Std.Rfc5280.Name,
    optional "cRLName" Std.Rfc5280.GeneralName,
    optional "time" GeneralizedTime,
    optional "reasons" Std.Rfc5280.ReasonFlags]

/-- `RevokeRequest ::=` -/
def RevokeRequest : Ty :=
  SEQUENCE [
    mandatory "issuerName" Std.Rfc5280.Name,
    mandatory "serialNumber" INTEGER,
    mandatory "reason" Std.Rfc5280.CRLReason,
    optional "invalidityDate" GeneralizedTime,
    optional "passphrase" OCTET_STRING,
    optional "comment" UTF8String]

/-- `CMCCertId ::=` -/
def CMCCertId : Ty :=
  Std.Rfc5652.IssuerAndSerialNumber

/-- `ExtensionReq ::=` -/
def ExtensionReq : Ty :=
  constrained (SIZE_MAX 1) (SEQUENCE_OF Std.Rfc5280.Extension)

/-- `NoSignatureValue ::=` -/
def NoSignatureValue : Ty :=
  OCTET_STRING

/-- `BodyPartPath ::=` -/
def BodyPartPath : Ty :=
  constrained (SIZE_MAX 1) (SEQUENCE_OF BodyPartID)

/-- `CMCUnsignedData ::=` -/
def CMCUnsignedData : Ty :=
  SEQUENCE [
    mandatory "bodyPartPath" BodyPartPath,
    mandatory "identifier" OBJECT_IDENTIFIER,
    mandatory "content" ANY]

/-- `BodyPartReference ::=` -/
def BodyPartReference : Ty :=
  CHOICE [
    mandatory "bodyPartID" BodyPartID,
    mandatory "bodyPartPath" BodyPartPath]

/-- `CMCStatusInfoV2 ::=` -/
def CMCStatusInfoV2 : Ty :=
  SEQUENCE [
    mandatory "cMCStatus" CMCStatus,
    mandatory "bodyList" (constrained (SIZE_MAX 1) (SEQUENCE_OF BodyPartReference)),
    optional "statusString" UTF8String,
    optional "otherInfo" (CHOICE [
      mandatory "failInfo" CMCFailInfo,
      mandatory "pendInfo" PendInfo,
      mandatory "extendedFailInfo" (implicit .context 1 (SEQUENCE [
        mandatory "failInfoOID" OBJECT_IDENTIFIER,
        mandatory "failInfoValue" AttributeValue]))])]

/-- `PublishTrustAnchors ::=` -/
def PublishTrustAnchors : Ty :=
  SEQUENCE [
    mandatory "seqNumber" INTEGER,
    mandatory "hashAlgorithm" Std.Rfc5280.AlgorithmIdentifier,
    mandatory "anchorHashes" (SEQUENCE_OF OCTET_STRING)]

/-- `AuthPublish ::=` -/
def AuthPublish : Ty :=
  BodyPartID

/-- `BodyPartList ::=` -/
def BodyPartList : Ty :=
  constrained (SIZE_MAX 1) (SEQUENCE_OF BodyPartID)

/-- `CMCPublicationInfo ::=` -/
def CMCPublicationInfo : Ty :=
  SEQUENCE [
    mandatory "hashAlg" Std.Rfc5280.AlgorithmIdentifier,
    mandatory "certHashes" (SEQUENCE_OF OCTET_STRING),
    mandatory "pubInfo" Std.Rfc4211.PKIPublicationInfo]

/-- `ModCertTemplate ::=` -/
def ModCertTemplate : Ty :=
  SEQUENCE [
    mandatory "pkiDataReference" BodyPartPath,
    mandatory "certReferences" BodyPartList,
    default "replace" BOOLEAN (.int 1),
    mandatory "certTemplate" Std.Rfc4211.CertTemplate]

/-- `ControlsProcessed ::=` -/
def ControlsProcessed : Ty :=
  SEQUENCE [
    mandatory "bodyList" (constrained (SIZE_MAX 1) (SEQUENCE_OF BodyPartReference))]

/-- `IdentifyProofV2 ::=` -/
def IdentifyProofV2 : Ty :=
  SEQUENCE [
    mandatory "proofAlgID" Std.Rfc5280.AlgorithmIdentifier,
    mandatory "macAlgId" Std.Rfc5280.AlgorithmIdentifier,
    mandatory "witness" OCTET_STRING]

/-- `PopLinkWitnessV2 ::=` -/
def PopLinkWitnessV2 : Ty :=
  SEQUENCE [
    mandatory "keyGenAlgorithm" Std.Rfc5280.AlgorithmIdentifier,
    mandatory "macAlgorithm" Std.Rfc5280.AlgorithmIdentifier,
    mandatory "witness" OCTET_STRING]

/-- Classes of rfc6402.py and the types of the standard they implement. -/
def entries : List Entry :=
  [⟨"rfc6402.AttributeValue", Verif.Rfc6402.AttributeValue, AttributeValue, .same, false⟩,
   ⟨"rfc6402.CMCStatus", Verif.Rfc6402.CMCStatus, CMCStatus, .same, false⟩,
   ⟨"rfc6402.PendInfo", Verif.Rfc6402.PendInfo, PendInfo, .same, false⟩,
   ⟨"rfc6402.BodyPartID", Verif.Rfc6402.BodyPartID, BodyPartID, .same, false⟩,
   ⟨"rfc6402.BodyPartPath", Verif.Rfc6402.BodyPartPath, BodyPartPath, .same, false⟩,
   ⟨"rfc6402.BodyPartReference", Verif.Rfc6402.BodyPartReference, BodyPartReference, .same, false⟩,
   ⟨"rfc6402.CMCFailInfo", Verif.Rfc6402.CMCFailInfo, CMCFailInfo, .same, false⟩,
   ⟨"rfc6402.CMCStatusInfoV2", Verif.Rfc6402.CMCStatusInfoV2, CMCStatusInfoV2, (.refused [48, 15, 2, 1, 0, 48, 3, 2, 1, 0, 161, 5, 6, 1, 43, 5, 0]), false⟩,
   ⟨"rfc6402.GetCRL", Verif.Rfc6402.GetCRL, GetCRL, .same, false⟩,
   ⟨"rfc6402.PopLinkWitnessV2", Verif.Rfc6402.PopLinkWitnessV2, PopLinkWitnessV2, .same, false⟩,
   ⟨"rfc6402.ControlsProcessed", Verif.Rfc6402.ControlsProcessed, ControlsProcessed, .relaxed, false⟩,
   ⟨"rfc6402.CertificationRequest", Verif.Rfc6402.CertificationRequest, CertificationRequest, .same, false⟩,
   ⟨"rfc6402.TaggedCertificationRequest", Verif.Rfc6402.TaggedCertificationRequest, TaggedCertificationRequest, .same, false⟩,
   ⟨"rfc6402.TaggedRequest", Verif.Rfc6402.TaggedRequest, TaggedRequest, .relaxed, false⟩,
   ⟨"rfc6402.PublishTrustAnchors", Verif.Rfc6402.PublishTrustAnchors, PublishTrustAnchors, .same, false⟩,
   ⟨"rfc6402.RevokeRequest", Verif.Rfc6402.RevokeRequest, RevokeRequest, .same, false⟩,
   ⟨"rfc6402.TaggedContentInfo", Verif.Rfc6402.TaggedContentInfo, TaggedContentInfo, .same, false⟩,
   ⟨"rfc6402.IdentifyProofV2", Verif.Rfc6402.IdentifyProofV2, IdentifyProofV2, .same, false⟩,
   ⟨"rfc6402.CMCPublicationInfo", Verif.Rfc6402.CMCPublicationInfo, CMCPublicationInfo, .relaxed, false⟩,
   ⟨"rfc6402.CMCStatusInfo", Verif.Rfc6402.CMCStatusInfo, CMCStatusInfo, .relaxed, false⟩,
   ⟨"rfc6402.DecryptedPOP", Verif.Rfc6402.DecryptedPOP, DecryptedPOP, .same, false⟩,
   ⟨"rfc6402.TaggedAttribute", Verif.Rfc6402.TaggedAttribute, TaggedAttribute, .same, false⟩,
   ⟨"rfc6402.OtherMsg", Verif.Rfc6402.OtherMsg, OtherMsg, .same, false⟩,
   ⟨"rfc6402.PKIData", Verif.Rfc6402.PKIData, PKIData, .relaxed, false⟩,
   ⟨"rfc6402.BodyPartList", Verif.Rfc6402.BodyPartList, BodyPartList, .same, false⟩,
   ⟨"rfc6402.AuthPublish", Verif.Rfc6402.AuthPublish, AuthPublish, .same, false⟩,
   ⟨"rfc6402.CMCUnsignedData", Verif.Rfc6402.CMCUnsignedData, CMCUnsignedData, .same, false⟩,
   ⟨"rfc6402.CMCCertId", Verif.Rfc6402.CMCCertId, CMCCertId, .same, false⟩,
   ⟨"rfc6402.PKIResponse", Verif.Rfc6402.PKIResponse, PKIResponse, .relaxed, false⟩,
   ⟨"rfc6402.ResponseBody", Verif.Rfc6402.ResponseBody, ResponseBody, .relaxed, false⟩,
   ⟨"rfc6402.ModCertTemplate", Verif.Rfc6402.ModCertTemplate, ModCertTemplate, .same, false⟩,
   ⟨"rfc6402.ExtensionReq", Verif.Rfc6402.ExtensionReq, ExtensionReq, .same, false⟩,
   ⟨"rfc6402.LraPopWitness", Verif.Rfc6402.LraPopWitness, LraPopWitness, .same, false⟩,
   ⟨"rfc6402.GetCert", Verif.Rfc6402.GetCert, GetCert, .same, false⟩,
   ⟨"rfc6402.AddExtensions", Verif.Rfc6402.AddExtensions, AddExtensions, .same, false⟩,
   ⟨"rfc6402.EncryptedPOP", Verif.Rfc6402.EncryptedPOP, EncryptedPOP, .relaxed, false⟩,
   ⟨"rfc6402.NoSignatureValue", Verif.Rfc6402.NoSignatureValue, NoSignatureValue, .same, false⟩]

/-- Classes of rfc6402.py the transcription of the standard has no type for. -/
def beyond : List String :=
  ["rfc6402.ChangeSubjectName"]

/-- Constants of rfc6402.py and the values the standard gives them. -/
def constants : List Constant :=
  [⟨"rfc6402.bodyIdMax", Verif.Rfc6402.bodyIdMax, INTEGER, .int 4294967295, true⟩,
   ⟨"rfc6402.id_pkix", Verif.Rfc6402.id_pkix, OBJECT_IDENTIFIER, .oid [1, 3, 6, 1, 5, 5, 7], true⟩,
   ⟨"rfc6402.id_cmc", Verif.Rfc6402.id_cmc, OBJECT_IDENTIFIER, .oid [1, 3, 6, 1, 5, 5, 7, 7], true⟩,
   ⟨"rfc6402.id_cmc_batchResponses", Verif.Rfc6402.id_cmc_batchResponses, OBJECT_IDENTIFIER, .oid [1, 3, 6, 1, 5, 5, 7, 7, 29], true⟩,
   ⟨"rfc6402.id_cmc_popLinkWitness", Verif.Rfc6402.id_cmc_popLinkWitness, OBJECT_IDENTIFIER, .oid [1, 3, 6, 1, 5, 5, 7, 7, 23], true⟩,
   ⟨"rfc6402.id_cmc_popLinkWitnessV2", Verif.Rfc6402.id_cmc_popLinkWitnessV2, OBJECT_IDENTIFIER, .oid [1, 3, 6, 1, 5, 5, 7, 7, 33], true⟩,
   ⟨"rfc6402.id_cmc_identityProofV2", Verif.Rfc6402.id_cmc_identityProofV2, OBJECT_IDENTIFIER, .oid [1, 3, 6, 1, 5, 5, 7, 7, 34], true⟩,
   ⟨"rfc6402.id_cmc_revokeRequest", Verif.Rfc6402.id_cmc_revokeRequest, OBJECT_IDENTIFIER, .oid [1, 3, 6, 1, 5, 5, 7, 7, 17], true⟩,
   ⟨"rfc6402.id_cmc_recipientNonce", Verif.Rfc6402.id_cmc_recipientNonce, OBJECT_IDENTIFIER, .oid [1, 3, 6, 1, 5, 5, 7, 7, 7], true⟩,
   ⟨"rfc6402.id_cmc_popLinkRandom", Verif.Rfc6402.id_cmc_popLinkRandom, OBJECT_IDENTIFIER, .oid [1, 3, 6, 1, 5, 5, 7, 7, 22], true⟩,
   ⟨"rfc6402.id_cmc_statusInfo", Verif.Rfc6402.id_cmc_statusInfo, OBJECT_IDENTIFIER, .oid [1, 3, 6, 1, 5, 5, 7, 7, 1], true⟩,
   ⟨"rfc6402.id_cmc_trustedAnchors", Verif.Rfc6402.id_cmc_trustedAnchors, OBJECT_IDENTIFIER, .oid [1, 3, 6, 1, 5, 5, 7, 7, 26], true⟩,
   ⟨"rfc6402.id_cmc_transactionId", Verif.Rfc6402.id_cmc_transactionId, OBJECT_IDENTIFIER, .oid [1, 3, 6, 1, 5, 5, 7, 7, 5], true⟩,
   ⟨"rfc6402.id_cmc_encryptedPOP", Verif.Rfc6402.id_cmc_encryptedPOP, OBJECT_IDENTIFIER, .oid [1, 3, 6, 1, 5, 5, 7, 7, 9], true⟩,
   ⟨"rfc6402.id_cmc_senderNonce", Verif.Rfc6402.id_cmc_senderNonce, OBJECT_IDENTIFIER, .oid [1, 3, 6, 1, 5, 5, 7, 7, 6], true⟩,
   ⟨"rfc6402.id_cmc_authData", Verif.Rfc6402.id_cmc_authData, OBJECT_IDENTIFIER, .oid [1, 3, 6, 1, 5, 5, 7, 7, 27], true⟩,
   ⟨"rfc6402.id_kp_cmcCA", Verif.Rfc6402.id_kp_cmcCA, OBJECT_IDENTIFIER, .oid [1, 3, 6, 1, 5, 5, 7, 3, 27], true⟩,
   ⟨"rfc6402.id_cmc_confirmCertAcceptance", Verif.Rfc6402.id_cmc_confirmCertAcceptance, OBJECT_IDENTIFIER, .oid [1, 3, 6, 1, 5, 5, 7, 7, 24], true⟩,
   ⟨"rfc6402.id_cmc_raIdentityWitness", Verif.Rfc6402.id_cmc_raIdentityWitness, OBJECT_IDENTIFIER, .oid [1, 3, 6, 1, 5, 5, 7, 7, 35], true⟩,
   ⟨"rfc6402.id_ExtensionReq", Verif.Rfc6402.id_ExtensionReq, OBJECT_IDENTIFIER, .oid [1, 2, 840, 113549, 1, 9, 14], true⟩,
   ⟨"rfc6402.id_cct", Verif.Rfc6402.id_cct, OBJECT_IDENTIFIER, .oid [1, 3, 6, 1, 5, 5, 7, 12], true⟩,
   ⟨"rfc6402.id_cct_PKIData", Verif.Rfc6402.id_cct_PKIData, OBJECT_IDENTIFIER, .oid [1, 3, 6, 1, 5, 5, 7, 12, 2], true⟩,
   ⟨"rfc6402.id_kp_cmcRA", Verif.Rfc6402.id_kp_cmcRA, OBJECT_IDENTIFIER, .oid [1, 3, 6, 1, 5, 5, 7, 3, 28], true⟩,
   ⟨"rfc6402.id_cmc_addExtensions", Verif.Rfc6402.id_cmc_addExtensions, OBJECT_IDENTIFIER, .oid [1, 3, 6, 1, 5, 5, 7, 7, 8], true⟩,
   ⟨"rfc6402.id_cmc_modCertTemplate", Verif.Rfc6402.id_cmc_modCertTemplate, OBJECT_IDENTIFIER, .oid [1, 3, 6, 1, 5, 5, 7, 7, 31], true⟩,
   ⟨"rfc6402.id_cmc_responseBody", Verif.Rfc6402.id_cmc_responseBody, OBJECT_IDENTIFIER, .oid [1, 3, 6, 1, 5, 5, 7, 7, 37], true⟩,
   ⟨"rfc6402.id_cmc_statusInfoV2", Verif.Rfc6402.id_cmc_statusInfoV2, OBJECT_IDENTIFIER, .oid [1, 3, 6, 1, 5, 5, 7, 7, 25], true⟩,
   ⟨"rfc6402.id_cmc_lraPOPWitness", Verif.Rfc6402.id_cmc_lraPOPWitness, OBJECT_IDENTIFIER, .oid [1, 3, 6, 1, 5, 5, 7, 7, 11], true⟩,
   ⟨"rfc6402.id_cmc_regInfo", Verif.Rfc6402.id_cmc_regInfo, OBJECT_IDENTIFIER, .oid [1, 3, 6, 1, 5, 5, 7, 7, 18], true⟩,
   ⟨"rfc6402.id_cmc_identityProof", Verif.Rfc6402.id_cmc_identityProof, OBJECT_IDENTIFIER, .oid [1, 3, 6, 1, 5, 5, 7, 7, 3], true⟩,
   ⟨"rfc6402.id_cmc_publishCert", Verif.Rfc6402.id_cmc_publishCert, OBJECT_IDENTIFIER, .oid [1, 3, 6, 1, 5, 5, 7, 7, 30], true⟩,
   ⟨"rfc6402.id_cmc_dataReturn", Verif.Rfc6402.id_cmc_dataReturn, OBJECT_IDENTIFIER, .oid [1, 3, 6, 1, 5, 5, 7, 7, 4], true⟩,
   ⟨"rfc6402.id_aa", Verif.Rfc6402.id_aa, OBJECT_IDENTIFIER, .oid [1, 2, 840, 113549, 1, 9, 16, 2], true⟩,
   ⟨"rfc6402.id_aa_cmc_unsignedData", Verif.Rfc6402.id_aa_cmc_unsignedData, OBJECT_IDENTIFIER, .oid [1, 2, 840, 113549, 1, 9, 16, 2, 34], true⟩,
   ⟨"rfc6402.id_cmc_getCert", Verif.Rfc6402.id_cmc_getCert, OBJECT_IDENTIFIER, .oid [1, 3, 6, 1, 5, 5, 7, 7, 15], true⟩,
   ⟨"rfc6402.id_cmc_batchRequests", Verif.Rfc6402.id_cmc_batchRequests, OBJECT_IDENTIFIER, .oid [1, 3, 6, 1, 5, 5, 7, 7, 28], true⟩,
   ⟨"rfc6402.id_cmc_decryptedPOP", Verif.Rfc6402.id_cmc_decryptedPOP, OBJECT_IDENTIFIER, .oid [1, 3, 6, 1, 5, 5, 7, 7, 10], true⟩,
   ⟨"rfc6402.id_cmc_responseInfo", Verif.Rfc6402.id_cmc_responseInfo, OBJECT_IDENTIFIER, .oid [1, 3, 6, 1, 5, 5, 7, 7, 19], true⟩,
   ⟨"rfc6402.id_cmc_changeSubjectName", Verif.Rfc6402.id_cmc_changeSubjectName, OBJECT_IDENTIFIER, .oid [1, 3, 6, 1, 5, 5, 7, 7, 36], true⟩,
   ⟨"rfc6402.id_cmc_identification", Verif.Rfc6402.id_cmc_identification, OBJECT_IDENTIFIER, .oid [1, 3, 6, 1, 5, 5, 7, 7, 2], true⟩,
   ⟨"rfc6402.id_cmc_queryPending", Verif.Rfc6402.id_cmc_queryPending, OBJECT_IDENTIFIER, .oid [1, 3, 6, 1, 5, 5, 7, 7, 21], true⟩,
   ⟨"rfc6402.id_cmc_getCRL", Verif.Rfc6402.id_cmc_getCRL, OBJECT_IDENTIFIER, .oid [1, 3, 6, 1, 5, 5, 7, 7, 16], true⟩,
   ⟨"rfc6402.id_cct_PKIResponse", Verif.Rfc6402.id_cct_PKIResponse, OBJECT_IDENTIFIER, .oid [1, 3, 6, 1, 5, 5, 7, 12, 3], true⟩,
   ⟨"rfc6402.id_cmc_controlProcessed", Verif.Rfc6402.id_cmc_controlProcessed, OBJECT_IDENTIFIER, .oid [1, 3, 6, 1, 5, 5, 7, 7, 32], true⟩,
   ⟨"rfc6402.id_ad_cmc", Verif.Rfc6402.id_ad_cmc, OBJECT_IDENTIFIER, .oid [1, 3, 6, 1, 5, 5, 7, 48, 12], true⟩,
   ⟨"rfc6402.id_alg_noSignature", Verif.Rfc6402.id_alg_noSignature, OBJECT_IDENTIFIER, .oid [1, 3, 6, 1, 5, 5, 7, 6, 2], true⟩]

/-- Constants of rfc6402.py the transcription of the standard has no value for. -/
def others : List String :=
  ["rfc6402.id_kp_cmcArchive"]

def standard : Standard := ⟨Verif.Rfc6402.asModule, entries, beyond, constants, others⟩

end Rfc6402
end Std
end Verif
