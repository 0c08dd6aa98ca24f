import Verif.Spec.Built
import Verif.Std.Rfc6402
import Verif.Built.Rfc4211
import Verif.Built.Rfc5280
import Verif.Std.Rfc4211
import Verif.Std.Rfc5280
import Verif.Std.Rfc5652

/-! What rfc6402.py implements, where that is not the standard (generated by tools/builtgen.py). -/

namespace Verif
namespace Built
namespace Rfc6402

open Asn1 Verif.Std Spec.X680 Spec.Built

/-- `TaggedRequest ::=` -/
def TaggedRequest : Ty :=
  CHOICE [
    mandatory "tcr" (implicit .context 0 Std.Rfc6402.TaggedCertificationRequest),
    mandatory "crm" (implicit .context 1 Built.Rfc4211.CertReqMsg),
    mandatory "orm" (implicit .context 2 (SEQUENCE [
      mandatory "bodyPartID" Std.Rfc6402.BodyPartID,
      mandatory "requestMessageType" OBJECT_IDENTIFIER,
      mandatory "requestMessageValue" ANY]))]

/-- `PKIData ::=`, changed or supplied -/
def PKIData : Ty :=
  SEQUENCE [
    mandatory "controlSequence" (SEQUENCE_OF Std.Rfc6402.TaggedAttribute),
    mandatory "reqSequence" (SEQUENCE_OF Built.Rfc6402.TaggedRequest),
    mandatory "cmsSequence" (SEQUENCE_OF Std.Rfc6402.TaggedContentInfo),
    mandatory "otherMsgSequence" (SEQUENCE_OF Std.Rfc6402.OtherMsg)]

/-- `ResponseBody ::=`, changed or supplied -/
def ResponseBody : Ty :=
  SEQUENCE [
    mandatory "controlSequence" (SEQUENCE_OF Std.Rfc6402.TaggedAttribute),
    mandatory "cmsSequence" (SEQUENCE_OF Std.Rfc6402.TaggedContentInfo),
    mandatory "otherMsgSequence" (SEQUENCE_OF Std.Rfc6402.OtherMsg)]

/-- `PKIResponse ::=` -/
def PKIResponse : Ty :=
  Built.Rfc6402.ResponseBody

/-- `CMCStatusInfo ::=`, changed or supplied -/
def CMCStatusInfo : Ty :=
  SEQUENCE [
    mandatory "cMCStatus" Std.Rfc6402.CMCStatus,
    mandatory "bodyList" (SEQUENCE_OF Std.Rfc6402.BodyPartID),
    optional "statusString" UTF8String,
    optional "otherInfo" (CHOICE [
      mandatory "failInfo" Std.Rfc6402.CMCFailInfo,
      mandatory "pendInfo" Std.Rfc6402.PendInfo])]

/-- `EncryptedPOP ::=` -/
def EncryptedPOP : Ty :=
  SEQUENCE [
    mandatory "request" Built.Rfc6402.TaggedRequest,
    mandatory "cms" Std.Rfc5652.ContentInfo,
    mandatory "thePOPAlgID" Std.Rfc5280.AlgorithmIdentifier,
    mandatory "witnessAlgID" Std.Rfc5280.AlgorithmIdentifier,
    mandatory "witness" OCTET_STRING]

/-- `CMCStatusInfoV2 ::=`, changed or supplied -/
def CMCStatusInfoV2 : Ty :=
  SEQUENCE [
    mandatory "cMCStatus" Std.Rfc6402.CMCStatus,
    mandatory "bodyList" (SEQUENCE_OF Std.Rfc6402.BodyPartReference),
    optional "statusString" UTF8String,
    optional "otherInfo" (CHOICE [
      mandatory "failInfo" Std.Rfc6402.CMCFailInfo,
      mandatory "pendInfo" Std.Rfc6402.PendInfo,
      mandatory "extendedFailInfo" (SEQUENCE [
        mandatory "failInfoOID" OBJECT_IDENTIFIER,
        mandatory "failInfoValue" Std.Rfc6402.AttributeValue])])]

/-- `CMCPublicationInfo ::=` -/
def CMCPublicationInfo : Ty :=
  SEQUENCE [
    mandatory "hashAlg" Std.Rfc5280.AlgorithmIdentifier,
    mandatory "certHashes" (SEQUENCE_OF OCTET_STRING),
    mandatory "pubInfo" Built.Rfc4211.PKIPublicationInfo]

/-- `ControlsProcessed ::=`, changed or supplied -/
def ControlsProcessed : Ty :=
  SEQUENCE [
    mandatory "bodyList" (SEQUENCE_OF Std.Rfc6402.BodyPartReference)]

/-- `ChangeSubjectName ::=`, changed or supplied -/
def ChangeSubjectName : Ty :=
  SEQUENCE [
    optional "subject" Std.Rfc5280.Name,
    optional "subjectAlt" Std.Rfc5280.GeneralNames]

def description : Description :=
  ⟨Verif.Rfc6402.asModule,
   [⟨"rfc6402.ChangeSubjectName", Verif.Rfc6402.ChangeSubjectName, Built.Rfc6402.ChangeSubjectName⟩,
    ⟨"rfc6402.AttributeValue", Verif.Rfc6402.AttributeValue, Std.Rfc6402.AttributeValue⟩,
    ⟨"rfc6402.CMCStatus", Verif.Rfc6402.CMCStatus, Std.Rfc6402.CMCStatus⟩,
    ⟨"rfc6402.PendInfo", Verif.Rfc6402.PendInfo, Std.Rfc6402.PendInfo⟩,
    ⟨"rfc6402.BodyPartID", Verif.Rfc6402.BodyPartID, Std.Rfc6402.BodyPartID⟩,
    ⟨"rfc6402.BodyPartPath", Verif.Rfc6402.BodyPartPath, Std.Rfc6402.BodyPartPath⟩,
    ⟨"rfc6402.BodyPartReference", Verif.Rfc6402.BodyPartReference, Std.Rfc6402.BodyPartReference⟩,
    ⟨"rfc6402.CMCFailInfo", Verif.Rfc6402.CMCFailInfo, Std.Rfc6402.CMCFailInfo⟩,
    ⟨"rfc6402.CMCStatusInfoV2", Verif.Rfc6402.CMCStatusInfoV2, Built.Rfc6402.CMCStatusInfoV2⟩,
    ⟨"rfc6402.GetCRL", Verif.Rfc6402.GetCRL, Std.Rfc6402.GetCRL⟩,
    ⟨"rfc6402.PopLinkWitnessV2", Verif.Rfc6402.PopLinkWitnessV2, Std.Rfc6402.PopLinkWitnessV2⟩,
    ⟨"rfc6402.ControlsProcessed", Verif.Rfc6402.ControlsProcessed, Built.Rfc6402.ControlsProcessed⟩,
    ⟨"rfc6402.CertificationRequest", Verif.Rfc6402.CertificationRequest, Std.Rfc6402.CertificationRequest⟩,
    ⟨"rfc6402.TaggedCertificationRequest", Verif.Rfc6402.TaggedCertificationRequest, Std.Rfc6402.TaggedCertificationRequest⟩,
    ⟨"rfc6402.TaggedRequest", Verif.Rfc6402.TaggedRequest, Built.Rfc6402.TaggedRequest⟩,
    ⟨"rfc6402.PublishTrustAnchors", Verif.Rfc6402.PublishTrustAnchors, Std.Rfc6402.PublishTrustAnchors⟩,
    ⟨"rfc6402.RevokeRequest", Verif.Rfc6402.RevokeRequest, Std.Rfc6402.RevokeRequest⟩,
    ⟨"rfc6402.TaggedContentInfo", Verif.Rfc6402.TaggedContentInfo, Std.Rfc6402.TaggedContentInfo⟩,
    ⟨"rfc6402.IdentifyProofV2", Verif.Rfc6402.IdentifyProofV2, Std.Rfc6402.IdentifyProofV2⟩,
    ⟨"rfc6402.CMCPublicationInfo", Verif.Rfc6402.CMCPublicationInfo, Built.Rfc6402.CMCPublicationInfo⟩,
    ⟨"rfc6402.CMCStatusInfo", Verif.Rfc6402.CMCStatusInfo, Built.Rfc6402.CMCStatusInfo⟩,
    ⟨"rfc6402.DecryptedPOP", Verif.Rfc6402.DecryptedPOP, Std.Rfc6402.DecryptedPOP⟩,
    ⟨"rfc6402.TaggedAttribute", Verif.Rfc6402.TaggedAttribute, Std.Rfc6402.TaggedAttribute⟩,
    ⟨"rfc6402.OtherMsg", Verif.Rfc6402.OtherMsg, Std.Rfc6402.OtherMsg⟩,
    ⟨"rfc6402.PKIData", Verif.Rfc6402.PKIData, Built.Rfc6402.PKIData⟩,
    ⟨"rfc6402.BodyPartList", Verif.Rfc6402.BodyPartList, Std.Rfc6402.BodyPartList⟩,
    ⟨"rfc6402.AuthPublish", Verif.Rfc6402.AuthPublish, Std.Rfc6402.AuthPublish⟩,
    ⟨"rfc6402.CMCUnsignedData", Verif.Rfc6402.CMCUnsignedData, Std.Rfc6402.CMCUnsignedData⟩,
    ⟨"rfc6402.CMCCertId", Verif.Rfc6402.CMCCertId, Std.Rfc6402.CMCCertId⟩,
    ⟨"rfc6402.PKIResponse", Verif.Rfc6402.PKIResponse, Built.Rfc6402.PKIResponse⟩,
    ⟨"rfc6402.ResponseBody", Verif.Rfc6402.ResponseBody, Built.Rfc6402.ResponseBody⟩,
    ⟨"rfc6402.ModCertTemplate", Verif.Rfc6402.ModCertTemplate, Std.Rfc6402.ModCertTemplate⟩,
    ⟨"rfc6402.ExtensionReq", Verif.Rfc6402.ExtensionReq, Std.Rfc6402.ExtensionReq⟩,
    ⟨"rfc6402.LraPopWitness", Verif.Rfc6402.LraPopWitness, Std.Rfc6402.LraPopWitness⟩,
    ⟨"rfc6402.GetCert", Verif.Rfc6402.GetCert, Std.Rfc6402.GetCert⟩,
    ⟨"rfc6402.AddExtensions", Verif.Rfc6402.AddExtensions, Std.Rfc6402.AddExtensions⟩,
    ⟨"rfc6402.EncryptedPOP", Verif.Rfc6402.EncryptedPOP, Built.Rfc6402.EncryptedPOP⟩,
    ⟨"rfc6402.NoSignatureValue", Verif.Rfc6402.NoSignatureValue, Std.Rfc6402.NoSignatureValue⟩]⟩

end Rfc6402
end Built
end Verif
