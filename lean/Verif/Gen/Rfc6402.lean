import Verif.Py.Obj
import Verif.Gen.Rfc4211
import Verif.Gen.Rfc5280
import Verif.Gen.Rfc5652

/-! Transcription of /repo/pyasn1_modules/rfc6402.py (generated by tools/gen.py). -/

namespace Verif
namespace Rfc6402

/-- rfc6402.py:30 -/
def MAX : Py.Bound :=
  .inf

/-- rfc6402.py:33-41 `def _buildOid(*components)` -/
def _buildOid (components : List Py.OidArg) : Py.Obj :=
  match Py.oidLoop [] components with
  | some output => Py.univ.ObjectIdentifier.call.callArcs output
  | none => .fail "OID without value"

/-- rfc6402.py:48-49 `class ChangeSubjectName(univ.Sequence)` -/
def ChangeSubjectName__0 : Py.Obj :=
  Py.univ.Sequence

/-- rfc6402.py:52-55 `ChangeSubjectName.componentType = ...` -/
def ChangeSubjectName : Py.Obj :=
  Rfc6402.ChangeSubjectName__0.setComponentType (Py.NamedTypes [
    Py.OptionalNamedType "subject" Rfc5280.Name.call,
    Py.OptionalNamedType "subjectAlt" Rfc5280.GeneralNames.call])

/-- rfc6402.py:58-59 `class AttributeValue(univ.Any)` -/
def AttributeValue : Py.Obj :=
  Py.univ.Any

/-- rfc6402.py:62-63 `class CMCStatus(univ.Integer)` -/
def CMCStatus__0 : Py.Obj :=
  Py.univ.Integer

/-- rfc6402.py:66-74 `CMCStatus.namedValues = ...` -/
def CMCStatus : Py.Obj :=
  Rfc6402.CMCStatus__0.setNamedValues (Py.NamedValues [("success", 0), ("failed", 2), ("pending", 3), ("noSupport", 4), ("confirmRequired", 5), ("popRequired", 6), ("partial", 7)])

/-- rfc6402.py:77-78 `class PendInfo(univ.Sequence)` -/
def PendInfo__0 : Py.Obj :=
  Py.univ.Sequence

/-- rfc6402.py:81-84 `PendInfo.componentType = ...` -/
def PendInfo : Py.Obj :=
  Rfc6402.PendInfo__0.setComponentType (Py.NamedTypes [
    Py.NamedType "pendToken" Py.univ.OctetString.call,
    Py.NamedType "pendTime" Py.useful.GeneralizedTime.call])

/-- rfc6402.py:86 -/
def bodyIdMax : Py.Obj :=
  (Py.univ.Integer.call.callInt 4294967295)

/-- rfc6402.py:89-90 `class BodyPartID(univ.Integer)` -/
def BodyPartID__0 : Py.Obj :=
  Py.univ.Integer

/-- rfc6402.py:93 `BodyPartID.subtypeSpec = ...` -/
def BodyPartID : Py.Obj :=
  Rfc6402.BodyPartID__0.setSubtypeSpec (Py.ValueRangeConstraint (.fin 0) Rfc6402.bodyIdMax.bound)

/-- rfc6402.py:96-97 `class BodyPartPath(univ.SequenceOf)` -/
def BodyPartPath__0 : Py.Obj :=
  Py.univ.SequenceOf

/-- rfc6402.py:100 `BodyPartPath.componentType = ...` -/
def BodyPartPath__1 : Py.Obj :=
  Rfc6402.BodyPartPath__0.setComponentTypeOf Rfc6402.BodyPartID.call

/-- rfc6402.py:101 `BodyPartPath.sizeSpec = ...` -/
def BodyPartPath : Py.Obj :=
  Rfc6402.BodyPartPath__1.setSizeSpec (Py.ValueSizeConstraint (.fin 1) Rfc6402.MAX)

/-- rfc6402.py:104-105 `class BodyPartReference(univ.Choice)` -/
def BodyPartReference__0 : Py.Obj :=
  Py.univ.Choice

/-- rfc6402.py:108-111 `BodyPartReference.componentType = ...` -/
def BodyPartReference : Py.Obj :=
  Rfc6402.BodyPartReference__0.setComponentType (Py.NamedTypes [
    Py.NamedType "bodyPartID" Rfc6402.BodyPartID.call,
    Py.NamedType "bodyPartPath" Rfc6402.BodyPartPath.call])

/-- rfc6402.py:114-115 `class CMCFailInfo(univ.Integer)` -/
def CMCFailInfo__0 : Py.Obj :=
  Py.univ.Integer

/-- rfc6402.py:118-133 `CMCFailInfo.namedValues = ...` -/
def CMCFailInfo : Py.Obj :=
  Rfc6402.CMCFailInfo__0.setNamedValues (Py.NamedValues [("badAlg", 0), ("badMessageCheck", 1), ("badRequest", 2), ("badTime", 3), ("badCertId", 4), ("unsupportedExt", 5), ("mustArchiveKeys", 6), ("badIdentity", 7), ("popRequired", 8), ("popFailed", 9), ("noKeyReuse", 10), ("internalCAError", 11), ("tryLater", 12), ("authDataFail", 13)])

/-- rfc6402.py:136-137 `class CMCStatusInfoV2(univ.Sequence)` -/
def CMCStatusInfoV2__0 : Py.Obj :=
  Py.univ.Sequence

/-- rfc6402.py:140-159 `CMCStatusInfoV2.componentType = ...` -/
def CMCStatusInfoV2 : Py.Obj :=
  Rfc6402.CMCStatusInfoV2__0.setComponentType (Py.NamedTypes [
    Py.NamedType "cMCStatus" Rfc6402.CMCStatus.call,
    Py.NamedType "bodyList" (Py.univ.SequenceOf.call.setComponentTypeOf Rfc6402.BodyPartReference.call),
    Py.OptionalNamedType "statusString" Py.char.UTF8String.call,
    Py.OptionalNamedType "otherInfo" (Py.univ.Choice.call.setComponentType (Py.NamedTypes [
    Py.NamedType "failInfo" Rfc6402.CMCFailInfo.call,
    Py.NamedType "pendInfo" Rfc6402.PendInfo.call,
    Py.NamedType "extendedFailInfo" (Py.univ.Sequence.call.setComponentType (Py.NamedTypes [
    Py.NamedType "failInfoOID" Py.univ.ObjectIdentifier.call,
    Py.NamedType "failInfoValue" Rfc6402.AttributeValue.call]))]))])

/-- rfc6402.py:162-163 `class GetCRL(univ.Sequence)` -/
def GetCRL__0 : Py.Obj :=
  Py.univ.Sequence

/-- rfc6402.py:166-171 `GetCRL.componentType = ...` -/
def GetCRL : Py.Obj :=
  Rfc6402.GetCRL__0.setComponentType (Py.NamedTypes [
    Py.NamedType "issuerName" Rfc5280.Name.call,
    Py.OptionalNamedType "cRLName" Rfc5280.GeneralName.call,
    Py.OptionalNamedType "time" Py.useful.GeneralizedTime.call,
    Py.OptionalNamedType "reasons" Rfc5280.ReasonFlags.call])

/-- rfc6402.py:173 -/
def id_pkix : Py.Obj :=
  (Rfc6402._buildOid [.num 1, .num 3, .num 6, .num 1, .num 5, .num 5, .num 7])

/-- rfc6402.py:175 -/
def id_cmc : Py.Obj :=
  (Rfc6402._buildOid [.oid Rfc6402.id_pkix, .num 7])

/-- rfc6402.py:177 -/
def id_cmc_batchResponses : Py.Obj :=
  (Rfc6402._buildOid [.oid Rfc6402.id_cmc, .num 29])

/-- rfc6402.py:179 -/
def id_cmc_popLinkWitness : Py.Obj :=
  (Rfc6402._buildOid [.oid Rfc6402.id_cmc, .num 23])

/-- rfc6402.py:182-183 `class PopLinkWitnessV2(univ.Sequence)` -/
def PopLinkWitnessV2__0 : Py.Obj :=
  Py.univ.Sequence

/-- rfc6402.py:186-190 `PopLinkWitnessV2.componentType = ...` -/
def PopLinkWitnessV2 : Py.Obj :=
  Rfc6402.PopLinkWitnessV2__0.setComponentType (Py.NamedTypes [
    Py.NamedType "keyGenAlgorithm" Rfc5280.AlgorithmIdentifier.call,
    Py.NamedType "macAlgorithm" Rfc5280.AlgorithmIdentifier.call,
    Py.NamedType "witness" Py.univ.OctetString.call])

/-- rfc6402.py:192 -/
def id_cmc_popLinkWitnessV2 : Py.Obj :=
  (Rfc6402._buildOid [.oid Rfc6402.id_cmc, .num 33])

/-- rfc6402.py:194 -/
def id_cmc_identityProofV2 : Py.Obj :=
  (Rfc6402._buildOid [.oid Rfc6402.id_cmc, .num 34])

/-- rfc6402.py:196 -/
def id_cmc_revokeRequest : Py.Obj :=
  (Rfc6402._buildOid [.oid Rfc6402.id_cmc, .num 17])

/-- rfc6402.py:198 -/
def id_cmc_recipientNonce : Py.Obj :=
  (Rfc6402._buildOid [.oid Rfc6402.id_cmc, .num 7])

/-- rfc6402.py:201-202 `class ControlsProcessed(univ.Sequence)` -/
def ControlsProcessed__0 : Py.Obj :=
  Py.univ.Sequence

/-- rfc6402.py:205-207 `ControlsProcessed.componentType = ...` -/
def ControlsProcessed : Py.Obj :=
  Rfc6402.ControlsProcessed__0.setComponentType (Py.NamedTypes [
    Py.NamedType "bodyList" (Py.univ.SequenceOf.call.setComponentTypeOf Rfc6402.BodyPartReference.call)])

/-- rfc6402.py:210-211 `class CertificationRequest(univ.Sequence)` -/
def CertificationRequest__0 : Py.Obj :=
  Py.univ.Sequence

/-- rfc6402.py:214-238 `CertificationRequest.componentType = ...` -/
def CertificationRequest : Py.Obj :=
  Rfc6402.CertificationRequest__0.setComponentType (Py.NamedTypes [
    Py.NamedType "certificationRequestInfo" (Py.univ.Sequence.call.setComponentType (Py.NamedTypes [
    Py.NamedType "version" Py.univ.Integer.call,
    Py.NamedType "subject" Rfc5280.Name.call,
    Py.NamedType "subjectPublicKeyInfo" (Py.univ.Sequence.call.setComponentType (Py.NamedTypes [
    Py.NamedType "algorithm" Rfc5280.AlgorithmIdentifier.call,
    Py.NamedType "subjectPublicKey" Py.univ.BitString.call])),
    Py.NamedType "attributes" ((Py.univ.SetOf.call.setComponentTypeOf Rfc5652.Attribute.call).implicitTag (Py.Tag .context false 0))])),
    Py.NamedType "signatureAlgorithm" Rfc5280.AlgorithmIdentifier.call,
    Py.NamedType "signature" Py.univ.BitString.call])

/-- rfc6402.py:241-242 `class TaggedCertificationRequest(univ.Sequence)` -/
def TaggedCertificationRequest__0 : Py.Obj :=
  Py.univ.Sequence

/-- rfc6402.py:245-248 `TaggedCertificationRequest.componentType = ...` -/
def TaggedCertificationRequest : Py.Obj :=
  Rfc6402.TaggedCertificationRequest__0.setComponentType (Py.NamedTypes [
    Py.NamedType "bodyPartID" Rfc6402.BodyPartID.call,
    Py.NamedType "certificationRequest" Rfc6402.CertificationRequest.call])

/-- rfc6402.py:251-252 `class TaggedRequest(univ.Choice)` -/
def TaggedRequest__0 : Py.Obj :=
  Py.univ.Choice

/-- rfc6402.py:255-266 `TaggedRequest.componentType = ...` -/
def TaggedRequest : Py.Obj :=
  Rfc6402.TaggedRequest__0.setComponentType (Py.NamedTypes [
    Py.NamedType "tcr" (Rfc6402.TaggedCertificationRequest.call.implicitTag (Py.Tag .context true 0)),
    Py.NamedType "crm" (Rfc4211.CertReqMsg.call.implicitTag (Py.Tag .context false 1)),
    Py.NamedType "orm" ((Py.univ.Sequence.call.setComponentType (Py.NamedTypes [
    Py.NamedType "bodyPartID" Rfc6402.BodyPartID.call,
    Py.NamedType "requestMessageType" Py.univ.ObjectIdentifier.call,
    Py.NamedType "requestMessageValue" Py.univ.Any.call])).implicitTag (Py.Tag .context true 2))])

/-- rfc6402.py:268 -/
def id_cmc_popLinkRandom : Py.Obj :=
  (Rfc6402._buildOid [.oid Rfc6402.id_cmc, .num 22])

/-- rfc6402.py:270 -/
def id_cmc_statusInfo : Py.Obj :=
  (Rfc6402._buildOid [.oid Rfc6402.id_cmc, .num 1])

/-- rfc6402.py:272 -/
def id_cmc_trustedAnchors : Py.Obj :=
  (Rfc6402._buildOid [.oid Rfc6402.id_cmc, .num 26])

/-- rfc6402.py:274 -/
def id_cmc_transactionId : Py.Obj :=
  (Rfc6402._buildOid [.oid Rfc6402.id_cmc, .num 5])

/-- rfc6402.py:276 -/
def id_cmc_encryptedPOP : Py.Obj :=
  (Rfc6402._buildOid [.oid Rfc6402.id_cmc, .num 9])

/-- rfc6402.py:279-280 `class PublishTrustAnchors(univ.Sequence)` -/
def PublishTrustAnchors__0 : Py.Obj :=
  Py.univ.Sequence

/-- rfc6402.py:283-287 `PublishTrustAnchors.componentType = ...` -/
def PublishTrustAnchors : Py.Obj :=
  Rfc6402.PublishTrustAnchors__0.setComponentType (Py.NamedTypes [
    Py.NamedType "seqNumber" Py.univ.Integer.call,
    Py.NamedType "hashAlgorithm" Rfc5280.AlgorithmIdentifier.call,
    Py.NamedType "anchorHashes" (Py.univ.SequenceOf.call.setComponentTypeOf Py.univ.OctetString.call)])

/-- rfc6402.py:290-291 `class RevokeRequest(univ.Sequence)` -/
def RevokeRequest__0 : Py.Obj :=
  Py.univ.Sequence

/-- rfc6402.py:294-301 `RevokeRequest.componentType = ...` -/
def RevokeRequest : Py.Obj :=
  Rfc6402.RevokeRequest__0.setComponentType (Py.NamedTypes [
    Py.NamedType "issuerName" Rfc5280.Name.call,
    Py.NamedType "serialNumber" Py.univ.Integer.call,
    Py.NamedType "reason" Rfc5280.CRLReason.call,
    Py.OptionalNamedType "invalidityDate" Py.useful.GeneralizedTime.call,
    Py.OptionalNamedType "passphrase" Py.univ.OctetString.call,
    Py.OptionalNamedType "comment" Py.char.UTF8String.call])

/-- rfc6402.py:303 -/
def id_cmc_senderNonce : Py.Obj :=
  (Rfc6402._buildOid [.oid Rfc6402.id_cmc, .num 6])

/-- rfc6402.py:305 -/
def id_cmc_authData : Py.Obj :=
  (Rfc6402._buildOid [.oid Rfc6402.id_cmc, .num 27])

/-- rfc6402.py:308-309 `class TaggedContentInfo(univ.Sequence)` -/
def TaggedContentInfo__0 : Py.Obj :=
  Py.univ.Sequence

/-- rfc6402.py:312-315 `TaggedContentInfo.componentType = ...` -/
def TaggedContentInfo : Py.Obj :=
  Rfc6402.TaggedContentInfo__0.setComponentType (Py.NamedTypes [
    Py.NamedType "bodyPartID" Rfc6402.BodyPartID.call,
    Py.NamedType "contentInfo" Rfc5652.ContentInfo.call])

/-- rfc6402.py:318-319 `class IdentifyProofV2(univ.Sequence)` -/
def IdentifyProofV2__0 : Py.Obj :=
  Py.univ.Sequence

/-- rfc6402.py:322-326 `IdentifyProofV2.componentType = ...` -/
def IdentifyProofV2 : Py.Obj :=
  Rfc6402.IdentifyProofV2__0.setComponentType (Py.NamedTypes [
    Py.NamedType "proofAlgID" Rfc5280.AlgorithmIdentifier.call,
    Py.NamedType "macAlgId" Rfc5280.AlgorithmIdentifier.call,
    Py.NamedType "witness" Py.univ.OctetString.call])

/-- rfc6402.py:329-330 `class CMCPublicationInfo(univ.Sequence)` -/
def CMCPublicationInfo__0 : Py.Obj :=
  Py.univ.Sequence

/-- rfc6402.py:333-337 `CMCPublicationInfo.componentType = ...` -/
def CMCPublicationInfo : Py.Obj :=
  Rfc6402.CMCPublicationInfo__0.setComponentType (Py.NamedTypes [
    Py.NamedType "hashAlg" Rfc5280.AlgorithmIdentifier.call,
    Py.NamedType "certHashes" (Py.univ.SequenceOf.call.setComponentTypeOf Py.univ.OctetString.call),
    Py.NamedType "pubInfo" Rfc4211.PKIPublicationInfo.call])

/-- rfc6402.py:339 -/
def id_kp_cmcCA : Py.Obj :=
  (Rfc6402._buildOid [.oid Rfc5280.id_kp, .num 27])

/-- rfc6402.py:341 -/
def id_cmc_confirmCertAcceptance : Py.Obj :=
  (Rfc6402._buildOid [.oid Rfc6402.id_cmc, .num 24])

/-- rfc6402.py:343 -/
def id_cmc_raIdentityWitness : Py.Obj :=
  (Rfc6402._buildOid [.oid Rfc6402.id_cmc, .num 35])

/-- rfc6402.py:345 -/
def id_ExtensionReq : Py.Obj :=
  (Rfc6402._buildOid [.num 1, .num 2, .num 840, .num 113549, .num 1, .num 9, .num 14])

/-- rfc6402.py:347 -/
def id_cct : Py.Obj :=
  (Rfc6402._buildOid [.oid Rfc6402.id_pkix, .num 12])

/-- rfc6402.py:349 -/
def id_cct_PKIData : Py.Obj :=
  (Rfc6402._buildOid [.oid Rfc6402.id_cct, .num 2])

/-- rfc6402.py:351 -/
def id_kp_cmcRA : Py.Obj :=
  (Rfc6402._buildOid [.oid Rfc5280.id_kp, .num 28])

/-- rfc6402.py:354-355 `class CMCStatusInfo(univ.Sequence)` -/
def CMCStatusInfo__0 : Py.Obj :=
  Py.univ.Sequence

/-- rfc6402.py:358-370 `CMCStatusInfo.componentType = ...` -/
def CMCStatusInfo : Py.Obj :=
  Rfc6402.CMCStatusInfo__0.setComponentType (Py.NamedTypes [
    Py.NamedType "cMCStatus" Rfc6402.CMCStatus.call,
    Py.NamedType "bodyList" (Py.univ.SequenceOf.call.setComponentTypeOf Rfc6402.BodyPartID.call),
    Py.OptionalNamedType "statusString" Py.char.UTF8String.call,
    Py.OptionalNamedType "otherInfo" (Py.univ.Choice.call.setComponentType (Py.NamedTypes [
    Py.NamedType "failInfo" Rfc6402.CMCFailInfo.call,
    Py.NamedType "pendInfo" Rfc6402.PendInfo.call]))])

/-- rfc6402.py:373-374 `class DecryptedPOP(univ.Sequence)` -/
def DecryptedPOP__0 : Py.Obj :=
  Py.univ.Sequence

/-- rfc6402.py:377-381 `DecryptedPOP.componentType = ...` -/
def DecryptedPOP : Py.Obj :=
  Rfc6402.DecryptedPOP__0.setComponentType (Py.NamedTypes [
    Py.NamedType "bodyPartID" Rfc6402.BodyPartID.call,
    Py.NamedType "thePOPAlgID" Rfc5280.AlgorithmIdentifier.call,
    Py.NamedType "thePOP" Py.univ.OctetString.call])

/-- rfc6402.py:383 -/
def id_cmc_addExtensions : Py.Obj :=
  (Rfc6402._buildOid [.oid Rfc6402.id_cmc, .num 8])

/-- rfc6402.py:385 -/
def id_cmc_modCertTemplate : Py.Obj :=
  (Rfc6402._buildOid [.oid Rfc6402.id_cmc, .num 31])

/-- rfc6402.py:388-389 `class TaggedAttribute(univ.Sequence)` -/
def TaggedAttribute__0 : Py.Obj :=
  Py.univ.Sequence

/-- rfc6402.py:392-398 `TaggedAttribute.componentType = ...` -/
def TaggedAttribute : Py.Obj :=
  Rfc6402.TaggedAttribute__0.setComponentType (Py.NamedTypes [
    Py.NamedType "bodyPartID" Rfc6402.BodyPartID.call,
    Py.NamedType "attrType" Py.univ.ObjectIdentifier.call,
    Py.NamedType "attrValues" (Py.univ.SetOf.call.setComponentTypeOf Rfc6402.AttributeValue.call) (openType := some (Py.OpenType "attrType" (Py.map 8 "rfc5652.cmsAttributesMap")))])

/-- rfc6402.py:401-402 `class OtherMsg(univ.Sequence)` -/
def OtherMsg__0 : Py.Obj :=
  Py.univ.Sequence

/-- rfc6402.py:405-409 `OtherMsg.componentType = ...` -/
def OtherMsg : Py.Obj :=
  Rfc6402.OtherMsg__0.setComponentType (Py.NamedTypes [
    Py.NamedType "bodyPartID" Rfc6402.BodyPartID.call,
    Py.NamedType "otherMsgType" Py.univ.ObjectIdentifier.call,
    Py.NamedType "otherMsgValue" Py.univ.Any.call])

/-- rfc6402.py:412-413 `class PKIData(univ.Sequence)` -/
def PKIData__0 : Py.Obj :=
  Py.univ.Sequence

/-- rfc6402.py:416-421 `PKIData.componentType = ...` -/
def PKIData : Py.Obj :=
  Rfc6402.PKIData__0.setComponentType (Py.NamedTypes [
    Py.NamedType "controlSequence" (Py.univ.SequenceOf.call.setComponentTypeOf Rfc6402.TaggedAttribute.call),
    Py.NamedType "reqSequence" (Py.univ.SequenceOf.call.setComponentTypeOf Rfc6402.TaggedRequest.call),
    Py.NamedType "cmsSequence" (Py.univ.SequenceOf.call.setComponentTypeOf Rfc6402.TaggedContentInfo.call),
    Py.NamedType "otherMsgSequence" (Py.univ.SequenceOf.call.setComponentTypeOf Rfc6402.OtherMsg.call)])

/-- rfc6402.py:424-425 `class BodyPartList(univ.SequenceOf)` -/
def BodyPartList__0 : Py.Obj :=
  Py.univ.SequenceOf

/-- rfc6402.py:428 `BodyPartList.componentType = ...` -/
def BodyPartList__1 : Py.Obj :=
  Rfc6402.BodyPartList__0.setComponentTypeOf Rfc6402.BodyPartID.call

/-- rfc6402.py:429 `BodyPartList.sizeSpec = ...` -/
def BodyPartList : Py.Obj :=
  Rfc6402.BodyPartList__1.setSizeSpec (Py.ValueSizeConstraint (.fin 1) Rfc6402.MAX)

/-- rfc6402.py:431 -/
def id_cmc_responseBody : Py.Obj :=
  (Rfc6402._buildOid [.oid Rfc6402.id_cmc, .num 37])

/-- rfc6402.py:434-435 `class AuthPublish(BodyPartID)` -/
def AuthPublish : Py.Obj :=
  Rfc6402.BodyPartID

/-- rfc6402.py:438-439 `class CMCUnsignedData(univ.Sequence)` -/
def CMCUnsignedData__0 : Py.Obj :=
  Py.univ.Sequence

/-- rfc6402.py:442-446 `CMCUnsignedData.componentType = ...` -/
def CMCUnsignedData : Py.Obj :=
  Rfc6402.CMCUnsignedData__0.setComponentType (Py.NamedTypes [
    Py.NamedType "bodyPartPath" Rfc6402.BodyPartPath.call,
    Py.NamedType "identifier" Py.univ.ObjectIdentifier.call,
    Py.NamedType "content" Py.univ.Any.call])

/-- rfc6402.py:449-450 `class CMCCertId(rfc5652.IssuerAndSerialNumber)` -/
def CMCCertId : Py.Obj :=
  Rfc5652.IssuerAndSerialNumber

/-- rfc6402.py:453-454 `class PKIResponse(univ.Sequence)` -/
def PKIResponse__0 : Py.Obj :=
  Py.univ.Sequence

/-- rfc6402.py:457-461 `PKIResponse.componentType = ...` -/
def PKIResponse : Py.Obj :=
  Rfc6402.PKIResponse__0.setComponentType (Py.NamedTypes [
    Py.NamedType "controlSequence" (Py.univ.SequenceOf.call.setComponentTypeOf Rfc6402.TaggedAttribute.call),
    Py.NamedType "cmsSequence" (Py.univ.SequenceOf.call.setComponentTypeOf Rfc6402.TaggedContentInfo.call),
    Py.NamedType "otherMsgSequence" (Py.univ.SequenceOf.call.setComponentTypeOf Rfc6402.OtherMsg.call)])

/-- rfc6402.py:464-465 `class ResponseBody(PKIResponse)` -/
def ResponseBody : Py.Obj :=
  Rfc6402.PKIResponse

/-- rfc6402.py:468 -/
def id_cmc_statusInfoV2 : Py.Obj :=
  (Rfc6402._buildOid [.oid Rfc6402.id_cmc, .num 25])

/-- rfc6402.py:470 -/
def id_cmc_lraPOPWitness : Py.Obj :=
  (Rfc6402._buildOid [.oid Rfc6402.id_cmc, .num 11])

/-- rfc6402.py:473-474 `class ModCertTemplate(univ.Sequence)` -/
def ModCertTemplate__0 : Py.Obj :=
  Py.univ.Sequence

/-- rfc6402.py:477-482 `ModCertTemplate.componentType = ...` -/
def ModCertTemplate : Py.Obj :=
  Rfc6402.ModCertTemplate__0.setComponentType (Py.NamedTypes [
    Py.NamedType "pkiDataReference" Rfc6402.BodyPartPath.call,
    Py.NamedType "certReferences" Rfc6402.BodyPartList.call,
    Py.DefaultedNamedType "replace" (Py.univ.Boolean.call.callInt 1),
    Py.NamedType "certTemplate" Rfc4211.CertTemplate.call])

/-- rfc6402.py:484 -/
def id_cmc_regInfo : Py.Obj :=
  (Rfc6402._buildOid [.oid Rfc6402.id_cmc, .num 18])

/-- rfc6402.py:486 -/
def id_cmc_identityProof : Py.Obj :=
  (Rfc6402._buildOid [.oid Rfc6402.id_cmc, .num 3])

/-- rfc6402.py:489-490 `class ExtensionReq(univ.SequenceOf)` -/
def ExtensionReq__0 : Py.Obj :=
  Py.univ.SequenceOf

/-- rfc6402.py:493 `ExtensionReq.componentType = ...` -/
def ExtensionReq__1 : Py.Obj :=
  Rfc6402.ExtensionReq__0.setComponentTypeOf Rfc5280.Extension.call

/-- rfc6402.py:494 `ExtensionReq.sizeSpec = ...` -/
def ExtensionReq : Py.Obj :=
  Rfc6402.ExtensionReq__1.setSizeSpec (Py.ValueSizeConstraint (.fin 1) Rfc6402.MAX)

/-- rfc6402.py:496 -/
def id_kp_cmcArchive : Py.Obj :=
  (Rfc6402._buildOid [.oid Rfc5280.id_kp, .num 28])

/-- rfc6402.py:498 -/
def id_cmc_publishCert : Py.Obj :=
  (Rfc6402._buildOid [.oid Rfc6402.id_cmc, .num 30])

/-- rfc6402.py:500 -/
def id_cmc_dataReturn : Py.Obj :=
  (Rfc6402._buildOid [.oid Rfc6402.id_cmc, .num 4])

/-- rfc6402.py:503-504 `class LraPopWitness(univ.Sequence)` -/
def LraPopWitness__0 : Py.Obj :=
  Py.univ.Sequence

/-- rfc6402.py:507-510 `LraPopWitness.componentType = ...` -/
def LraPopWitness : Py.Obj :=
  Rfc6402.LraPopWitness__0.setComponentType (Py.NamedTypes [
    Py.NamedType "pkiDataBodyid" Rfc6402.BodyPartID.call,
    Py.NamedType "bodyIds" (Py.univ.SequenceOf.call.setComponentTypeOf Rfc6402.BodyPartID.call)])

/-- rfc6402.py:512 -/
def id_aa : Py.Obj :=
  (Rfc6402._buildOid [.num 1, .num 2, .num 840, .num 113549, .num 1, .num 9, .num 16, .num 2])

/-- rfc6402.py:514 -/
def id_aa_cmc_unsignedData : Py.Obj :=
  (Rfc6402._buildOid [.oid Rfc6402.id_aa, .num 34])

/-- rfc6402.py:516 -/
def id_cmc_getCert : Py.Obj :=
  (Rfc6402._buildOid [.oid Rfc6402.id_cmc, .num 15])

/-- rfc6402.py:518 -/
def id_cmc_batchRequests : Py.Obj :=
  (Rfc6402._buildOid [.oid Rfc6402.id_cmc, .num 28])

/-- rfc6402.py:520 -/
def id_cmc_decryptedPOP : Py.Obj :=
  (Rfc6402._buildOid [.oid Rfc6402.id_cmc, .num 10])

/-- rfc6402.py:522 -/
def id_cmc_responseInfo : Py.Obj :=
  (Rfc6402._buildOid [.oid Rfc6402.id_cmc, .num 19])

/-- rfc6402.py:524 -/
def id_cmc_changeSubjectName : Py.Obj :=
  (Rfc6402._buildOid [.oid Rfc6402.id_cmc, .num 36])

/-- rfc6402.py:527-528 `class GetCert(univ.Sequence)` -/
def GetCert__0 : Py.Obj :=
  Py.univ.Sequence

/-- rfc6402.py:531-534 `GetCert.componentType = ...` -/
def GetCert : Py.Obj :=
  Rfc6402.GetCert__0.setComponentType (Py.NamedTypes [
    Py.NamedType "issuerName" Rfc5280.GeneralName.call,
    Py.NamedType "serialNumber" Py.univ.Integer.call])

/-- rfc6402.py:536 -/
def id_cmc_identification : Py.Obj :=
  (Rfc6402._buildOid [.oid Rfc6402.id_cmc, .num 2])

/-- rfc6402.py:538 -/
def id_cmc_queryPending : Py.Obj :=
  (Rfc6402._buildOid [.oid Rfc6402.id_cmc, .num 21])

/-- rfc6402.py:541-542 `class AddExtensions(univ.Sequence)` -/
def AddExtensions__0 : Py.Obj :=
  Py.univ.Sequence

/-- rfc6402.py:545-549 `AddExtensions.componentType = ...` -/
def AddExtensions : Py.Obj :=
  Rfc6402.AddExtensions__0.setComponentType (Py.NamedTypes [
    Py.NamedType "pkiDataReference" Rfc6402.BodyPartID.call,
    Py.NamedType "certReferences" (Py.univ.SequenceOf.call.setComponentTypeOf Rfc6402.BodyPartID.call),
    Py.NamedType "extensions" (Py.univ.SequenceOf.call.setComponentTypeOf Rfc5280.Extension.call)])

/-- rfc6402.py:552-553 `class EncryptedPOP(univ.Sequence)` -/
def EncryptedPOP__0 : Py.Obj :=
  Py.univ.Sequence

/-- rfc6402.py:556-562 `EncryptedPOP.componentType = ...` -/
def EncryptedPOP : Py.Obj :=
  Rfc6402.EncryptedPOP__0.setComponentType (Py.NamedTypes [
    Py.NamedType "request" Rfc6402.TaggedRequest.call,
    Py.NamedType "cms" Rfc5652.ContentInfo.call,
    Py.NamedType "thePOPAlgID" Rfc5280.AlgorithmIdentifier.call,
    Py.NamedType "witnessAlgID" Rfc5280.AlgorithmIdentifier.call,
    Py.NamedType "witness" Py.univ.OctetString.call])

/-- rfc6402.py:564 -/
def id_cmc_getCRL : Py.Obj :=
  (Rfc6402._buildOid [.oid Rfc6402.id_cmc, .num 16])

/-- rfc6402.py:566 -/
def id_cct_PKIResponse : Py.Obj :=
  (Rfc6402._buildOid [.oid Rfc6402.id_cct, .num 3])

/-- rfc6402.py:568 -/
def id_cmc_controlProcessed : Py.Obj :=
  (Rfc6402._buildOid [.oid Rfc6402.id_cmc, .num 32])

/-- rfc6402.py:571-572 `class NoSignatureValue(univ.OctetString)` -/
def NoSignatureValue : Py.Obj :=
  Py.univ.OctetString

/-- rfc6402.py:575 -/
def id_ad_cmc : Py.Obj :=
  (Rfc6402._buildOid [.oid Rfc5280.id_ad, .num 12])

/-- rfc6402.py:577 -/
def id_alg_noSignature : Py.Obj :=
  (Rfc6402._buildOid [.oid Rfc6402.id_pkix, .num 6, .num 2])

/-- rfc6402.py:582-614 -/
def _cmcControlAttributesMapUpdate : Py.Entries :=
  [(Rfc6402.id_cmc_statusInfo.value, Rfc6402.CMCStatusInfo.call.ty),
    (Rfc6402.id_cmc_statusInfoV2.value, Rfc6402.CMCStatusInfoV2.call.ty),
    (Rfc6402.id_cmc_identification.value, Py.char.UTF8String.call.ty),
    (Rfc6402.id_cmc_identityProof.value, Py.univ.OctetString.call.ty),
    (Rfc6402.id_cmc_identityProofV2.value, Rfc6402.IdentifyProofV2.call.ty),
    (Rfc6402.id_cmc_dataReturn.value, Py.univ.OctetString.call.ty),
    (Rfc6402.id_cmc_transactionId.value, Py.univ.Integer.call.ty),
    (Rfc6402.id_cmc_senderNonce.value, Py.univ.OctetString.call.ty),
    (Rfc6402.id_cmc_recipientNonce.value, Py.univ.OctetString.call.ty),
    (Rfc6402.id_cmc_addExtensions.value, Rfc6402.AddExtensions.call.ty),
    (Rfc6402.id_cmc_encryptedPOP.value, Rfc6402.EncryptedPOP.call.ty),
    (Rfc6402.id_cmc_decryptedPOP.value, Rfc6402.DecryptedPOP.call.ty),
    (Rfc6402.id_cmc_lraPOPWitness.value, Rfc6402.LraPopWitness.call.ty),
    (Rfc6402.id_cmc_getCert.value, Rfc6402.GetCert.call.ty),
    (Rfc6402.id_cmc_getCRL.value, Rfc6402.GetCRL.call.ty),
    (Rfc6402.id_cmc_revokeRequest.value, Rfc6402.RevokeRequest.call.ty),
    (Rfc6402.id_cmc_regInfo.value, Py.univ.OctetString.call.ty),
    (Rfc6402.id_cmc_responseInfo.value, Py.univ.OctetString.call.ty),
    (Rfc6402.id_cmc_queryPending.value, Py.univ.OctetString.call.ty),
    (Rfc6402.id_cmc_popLinkRandom.value, Py.univ.OctetString.call.ty),
    (Rfc6402.id_cmc_popLinkWitness.value, Py.univ.OctetString.call.ty),
    (Rfc6402.id_cmc_popLinkWitnessV2.value, Rfc6402.PopLinkWitnessV2.call.ty),
    (Rfc6402.id_cmc_confirmCertAcceptance.value, Rfc6402.CMCCertId.call.ty),
    (Rfc6402.id_cmc_trustedAnchors.value, Rfc6402.PublishTrustAnchors.call.ty),
    (Rfc6402.id_cmc_authData.value, Rfc6402.AuthPublish.call.ty),
    (Rfc6402.id_cmc_batchRequests.value, Rfc6402.BodyPartList.call.ty),
    (Rfc6402.id_cmc_batchResponses.value, Rfc6402.BodyPartList.call.ty),
    (Rfc6402.id_cmc_publishCert.value, Rfc6402.CMCPublicationInfo.call.ty),
    (Rfc6402.id_cmc_modCertTemplate.value, Rfc6402.ModCertTemplate.call.ty),
    (Rfc6402.id_cmc_controlProcessed.value, Rfc6402.ControlsProcessed.call.ty),
    (Rfc6402.id_ExtensionReq.value, Rfc6402.ExtensionReq.call.ty)]

/-- rfc6402.py:622-625 -/
def _cmsContentTypesMapUpdate : Py.Entries :=
  [(Rfc6402.id_cct_PKIData.value, Rfc6402.PKIData.call.ty),
    (Rfc6402.id_cct_PKIResponse.value, Rfc6402.PKIResponse.call.ty)]

/-- Modules of this package imported by rfc6402.py, in textual order. -/
def imports : List Py.Ident :=
  [(Py.mod 56 "rfc4211"), (Py.mod 15 "rfc5280"), (Py.mod 16 "rfc5652")]

/-- Dictionary operations executed when rfc6402.py is imported, in program order. -/
def effects : List Py.Effect :=
  [.alias (Py.map 110 "rfc6402.cmcControlAttributesMap") (Py.map 8 "rfc5652.cmsAttributesMap") /- rfc6402.py:45 -/,
   .create (Py.map 111 "rfc6402._cmcControlAttributesMapUpdate") Rfc6402._cmcControlAttributesMapUpdate /- rfc6402.py:582-614 -/,
   .update (Py.map 8 "rfc5652.cmsAttributesMap") Rfc6402._cmcControlAttributesMapUpdate /- rfc6402.py:616 -/,
   .create (Py.map 112 "rfc6402._cmsContentTypesMapUpdate") Rfc6402._cmsContentTypesMapUpdate /- rfc6402.py:622-625 -/,
   .update (Py.map 13 "rfc5652.cmsContentTypesMap") Rfc6402._cmsContentTypesMapUpdate /- rfc6402.py:627 -/]

/-- ASN.1 types rfc6402.py binds at module level (final version of each name), plus nested classes. -/
def classes : List (String × Py.Obj) :=
  [("rfc6402.ChangeSubjectName", Rfc6402.ChangeSubjectName),
   ("rfc6402.AttributeValue", Rfc6402.AttributeValue),
   ("rfc6402.CMCStatus", Rfc6402.CMCStatus),
   ("rfc6402.PendInfo", Rfc6402.PendInfo),
   ("rfc6402.BodyPartID", Rfc6402.BodyPartID),
   ("rfc6402.BodyPartPath", Rfc6402.BodyPartPath),
   ("rfc6402.BodyPartReference", Rfc6402.BodyPartReference),
   ("rfc6402.CMCFailInfo", Rfc6402.CMCFailInfo),
   ("rfc6402.CMCStatusInfoV2", Rfc6402.CMCStatusInfoV2),
   ("rfc6402.GetCRL", Rfc6402.GetCRL),
   ("rfc6402.PopLinkWitnessV2", Rfc6402.PopLinkWitnessV2),
   ("rfc6402.ControlsProcessed", Rfc6402.ControlsProcessed),
   ("rfc6402.CertificationRequest", Rfc6402.CertificationRequest),
   ("rfc6402.TaggedCertificationRequest", Rfc6402.TaggedCertificationRequest),
   ("rfc6402.TaggedRequest", Rfc6402.TaggedRequest),
   ("rfc6402.PublishTrustAnchors", Rfc6402.PublishTrustAnchors),
   ("rfc6402.RevokeRequest", Rfc6402.RevokeRequest),
   ("rfc6402.TaggedContentInfo", Rfc6402.TaggedContentInfo),
   ("rfc6402.IdentifyProofV2", Rfc6402.IdentifyProofV2),
   ("rfc6402.CMCPublicationInfo", Rfc6402.CMCPublicationInfo),
   ("rfc6402.CMCStatusInfo", Rfc6402.CMCStatusInfo),
   ("rfc6402.DecryptedPOP", Rfc6402.DecryptedPOP),
   ("rfc6402.TaggedAttribute", Rfc6402.TaggedAttribute),
   ("rfc6402.OtherMsg", Rfc6402.OtherMsg),
   ("rfc6402.PKIData", Rfc6402.PKIData),
   ("rfc6402.BodyPartList", Rfc6402.BodyPartList),
   ("rfc6402.AuthPublish", Rfc6402.AuthPublish),
   ("rfc6402.CMCUnsignedData", Rfc6402.CMCUnsignedData),
   ("rfc6402.CMCCertId", Rfc6402.CMCCertId),
   ("rfc6402.PKIResponse", Rfc6402.PKIResponse),
   ("rfc6402.ResponseBody", Rfc6402.ResponseBody),
   ("rfc6402.ModCertTemplate", Rfc6402.ModCertTemplate),
   ("rfc6402.ExtensionReq", Rfc6402.ExtensionReq),
   ("rfc6402.LraPopWitness", Rfc6402.LraPopWitness),
   ("rfc6402.GetCert", Rfc6402.GetCert),
   ("rfc6402.AddExtensions", Rfc6402.AddExtensions),
   ("rfc6402.EncryptedPOP", Rfc6402.EncryptedPOP),
   ("rfc6402.NoSignatureValue", Rfc6402.NoSignatureValue)]

/-- pyasn1 instances rfc6402.py binds at module level. -/
def objects : List (String × Py.Obj) :=
  [("rfc6402.bodyIdMax", Rfc6402.bodyIdMax),
   ("rfc6402.id_pkix", Rfc6402.id_pkix),
   ("rfc6402.id_cmc", Rfc6402.id_cmc),
   ("rfc6402.id_cmc_batchResponses", Rfc6402.id_cmc_batchResponses),
   ("rfc6402.id_cmc_popLinkWitness", Rfc6402.id_cmc_popLinkWitness),
   ("rfc6402.id_cmc_popLinkWitnessV2", Rfc6402.id_cmc_popLinkWitnessV2),
   ("rfc6402.id_cmc_identityProofV2", Rfc6402.id_cmc_identityProofV2),
   ("rfc6402.id_cmc_revokeRequest", Rfc6402.id_cmc_revokeRequest),
   ("rfc6402.id_cmc_recipientNonce", Rfc6402.id_cmc_recipientNonce),
   ("rfc6402.id_cmc_popLinkRandom", Rfc6402.id_cmc_popLinkRandom),
   ("rfc6402.id_cmc_statusInfo", Rfc6402.id_cmc_statusInfo),
   ("rfc6402.id_cmc_trustedAnchors", Rfc6402.id_cmc_trustedAnchors),
   ("rfc6402.id_cmc_transactionId", Rfc6402.id_cmc_transactionId),
   ("rfc6402.id_cmc_encryptedPOP", Rfc6402.id_cmc_encryptedPOP),
   ("rfc6402.id_cmc_senderNonce", Rfc6402.id_cmc_senderNonce),
   ("rfc6402.id_cmc_authData", Rfc6402.id_cmc_authData),
   ("rfc6402.id_kp_cmcCA", Rfc6402.id_kp_cmcCA),
   ("rfc6402.id_cmc_confirmCertAcceptance", Rfc6402.id_cmc_confirmCertAcceptance),
   ("rfc6402.id_cmc_raIdentityWitness", Rfc6402.id_cmc_raIdentityWitness),
   ("rfc6402.id_ExtensionReq", Rfc6402.id_ExtensionReq),
   ("rfc6402.id_cct", Rfc6402.id_cct),
   ("rfc6402.id_cct_PKIData", Rfc6402.id_cct_PKIData),
   ("rfc6402.id_kp_cmcRA", Rfc6402.id_kp_cmcRA),
   ("rfc6402.id_cmc_addExtensions", Rfc6402.id_cmc_addExtensions),
   ("rfc6402.id_cmc_modCertTemplate", Rfc6402.id_cmc_modCertTemplate),
   ("rfc6402.id_cmc_responseBody", Rfc6402.id_cmc_responseBody),
   ("rfc6402.id_cmc_statusInfoV2", Rfc6402.id_cmc_statusInfoV2),
   ("rfc6402.id_cmc_lraPOPWitness", Rfc6402.id_cmc_lraPOPWitness),
   ("rfc6402.id_cmc_regInfo", Rfc6402.id_cmc_regInfo),
   ("rfc6402.id_cmc_identityProof", Rfc6402.id_cmc_identityProof),
   ("rfc6402.id_kp_cmcArchive", Rfc6402.id_kp_cmcArchive),
   ("rfc6402.id_cmc_publishCert", Rfc6402.id_cmc_publishCert),
   ("rfc6402.id_cmc_dataReturn", Rfc6402.id_cmc_dataReturn),
   ("rfc6402.id_aa", Rfc6402.id_aa),
   ("rfc6402.id_aa_cmc_unsignedData", Rfc6402.id_aa_cmc_unsignedData),
   ("rfc6402.id_cmc_getCert", Rfc6402.id_cmc_getCert),
   ("rfc6402.id_cmc_batchRequests", Rfc6402.id_cmc_batchRequests),
   ("rfc6402.id_cmc_decryptedPOP", Rfc6402.id_cmc_decryptedPOP),
   ("rfc6402.id_cmc_responseInfo", Rfc6402.id_cmc_responseInfo),
   ("rfc6402.id_cmc_changeSubjectName", Rfc6402.id_cmc_changeSubjectName),
   ("rfc6402.id_cmc_identification", Rfc6402.id_cmc_identification),
   ("rfc6402.id_cmc_queryPending", Rfc6402.id_cmc_queryPending),
   ("rfc6402.id_cmc_getCRL", Rfc6402.id_cmc_getCRL),
   ("rfc6402.id_cct_PKIResponse", Rfc6402.id_cct_PKIResponse),
   ("rfc6402.id_cmc_controlProcessed", Rfc6402.id_cmc_controlProcessed),
   ("rfc6402.id_ad_cmc", Rfc6402.id_ad_cmc),
   ("rfc6402.id_alg_noSignature", Rfc6402.id_alg_noSignature)]

/-- pyasn1 instances rfc6402.py fills in by item assignment. -/
def protos : List (String × Py.Proto) :=
  []

/-- Every place of rfc6402.py that instantiates a class of the package: where, the class as it is
at that point, and the class as it is when the import has finished. -/
def snapshots : List Py.Snapshot :=
  [⟨"rfc6402.py:53", Rfc5280.Name, Rfc5280.Name⟩,
   ⟨"rfc6402.py:54", Rfc5280.GeneralNames, Rfc5280.GeneralNames⟩,
   ⟨"rfc6402.py:100", Rfc6402.BodyPartID, Rfc6402.BodyPartID⟩,
   ⟨"rfc6402.py:109", Rfc6402.BodyPartID, Rfc6402.BodyPartID⟩,
   ⟨"rfc6402.py:110", Rfc6402.BodyPartPath, Rfc6402.BodyPartPath⟩,
   ⟨"rfc6402.py:141", Rfc6402.CMCStatus, Rfc6402.CMCStatus⟩,
   ⟨"rfc6402.py:142", Rfc6402.BodyPartReference, Rfc6402.BodyPartReference⟩,
   ⟨"rfc6402.py:147", Rfc6402.CMCFailInfo, Rfc6402.CMCFailInfo⟩,
   ⟨"rfc6402.py:148", Rfc6402.PendInfo, Rfc6402.PendInfo⟩,
   ⟨"rfc6402.py:153", Rfc6402.AttributeValue, Rfc6402.AttributeValue⟩,
   ⟨"rfc6402.py:167", Rfc5280.Name, Rfc5280.Name⟩,
   ⟨"rfc6402.py:168", Rfc5280.GeneralName, Rfc5280.GeneralName⟩,
   ⟨"rfc6402.py:170", Rfc5280.ReasonFlags, Rfc5280.ReasonFlags⟩,
   ⟨"rfc6402.py:187", Rfc5280.AlgorithmIdentifier, Rfc5280.AlgorithmIdentifier⟩,
   ⟨"rfc6402.py:188", Rfc5280.AlgorithmIdentifier, Rfc5280.AlgorithmIdentifier⟩,
   ⟨"rfc6402.py:206", Rfc6402.BodyPartReference, Rfc6402.BodyPartReference⟩,
   ⟨"rfc6402.py:219", Rfc5280.Name, Rfc5280.Name⟩,
   ⟨"rfc6402.py:223", Rfc5280.AlgorithmIdentifier, Rfc5280.AlgorithmIdentifier⟩,
   ⟨"rfc6402.py:230", Rfc5652.Attribute, Rfc5652.Attribute⟩,
   ⟨"rfc6402.py:236", Rfc5280.AlgorithmIdentifier, Rfc5280.AlgorithmIdentifier⟩,
   ⟨"rfc6402.py:246", Rfc6402.BodyPartID, Rfc6402.BodyPartID⟩,
   ⟨"rfc6402.py:247", Rfc6402.CertificationRequest, Rfc6402.CertificationRequest⟩,
   ⟨"rfc6402.py:256", Rfc6402.TaggedCertificationRequest, Rfc6402.TaggedCertificationRequest⟩,
   ⟨"rfc6402.py:259", Rfc4211.CertReqMsg, Rfc4211.CertReqMsg⟩,
   ⟨"rfc6402.py:261", Rfc6402.BodyPartID, Rfc6402.BodyPartID⟩,
   ⟨"rfc6402.py:285", Rfc5280.AlgorithmIdentifier, Rfc5280.AlgorithmIdentifier⟩,
   ⟨"rfc6402.py:295", Rfc5280.Name, Rfc5280.Name⟩,
   ⟨"rfc6402.py:297", Rfc5280.CRLReason, Rfc5280.CRLReason⟩,
   ⟨"rfc6402.py:313", Rfc6402.BodyPartID, Rfc6402.BodyPartID⟩,
   ⟨"rfc6402.py:314", Rfc5652.ContentInfo, Rfc5652.ContentInfo⟩,
   ⟨"rfc6402.py:323", Rfc5280.AlgorithmIdentifier, Rfc5280.AlgorithmIdentifier⟩,
   ⟨"rfc6402.py:324", Rfc5280.AlgorithmIdentifier, Rfc5280.AlgorithmIdentifier⟩,
   ⟨"rfc6402.py:334", Rfc5280.AlgorithmIdentifier, Rfc5280.AlgorithmIdentifier⟩,
   ⟨"rfc6402.py:336", Rfc4211.PKIPublicationInfo, Rfc4211.PKIPublicationInfo⟩,
   ⟨"rfc6402.py:359", Rfc6402.CMCStatus, Rfc6402.CMCStatus⟩,
   ⟨"rfc6402.py:360", Rfc6402.BodyPartID, Rfc6402.BodyPartID⟩,
   ⟨"rfc6402.py:365", Rfc6402.CMCFailInfo, Rfc6402.CMCFailInfo⟩,
   ⟨"rfc6402.py:366", Rfc6402.PendInfo, Rfc6402.PendInfo⟩,
   ⟨"rfc6402.py:378", Rfc6402.BodyPartID, Rfc6402.BodyPartID⟩,
   ⟨"rfc6402.py:379", Rfc5280.AlgorithmIdentifier, Rfc5280.AlgorithmIdentifier⟩,
   ⟨"rfc6402.py:393", Rfc6402.BodyPartID, Rfc6402.BodyPartID⟩,
   ⟨"rfc6402.py:395", Rfc6402.AttributeValue, Rfc6402.AttributeValue⟩,
   ⟨"rfc6402.py:406", Rfc6402.BodyPartID, Rfc6402.BodyPartID⟩,
   ⟨"rfc6402.py:417", Rfc6402.TaggedAttribute, Rfc6402.TaggedAttribute⟩,
   ⟨"rfc6402.py:418", Rfc6402.TaggedRequest, Rfc6402.TaggedRequest⟩,
   ⟨"rfc6402.py:419", Rfc6402.TaggedContentInfo, Rfc6402.TaggedContentInfo⟩,
   ⟨"rfc6402.py:420", Rfc6402.OtherMsg, Rfc6402.OtherMsg⟩,
   ⟨"rfc6402.py:428", Rfc6402.BodyPartID, Rfc6402.BodyPartID⟩,
   ⟨"rfc6402.py:443", Rfc6402.BodyPartPath, Rfc6402.BodyPartPath⟩,
   ⟨"rfc6402.py:458", Rfc6402.TaggedAttribute, Rfc6402.TaggedAttribute⟩,
   ⟨"rfc6402.py:459", Rfc6402.TaggedContentInfo, Rfc6402.TaggedContentInfo⟩,
   ⟨"rfc6402.py:460", Rfc6402.OtherMsg, Rfc6402.OtherMsg⟩,
   ⟨"rfc6402.py:478", Rfc6402.BodyPartPath, Rfc6402.BodyPartPath⟩,
   ⟨"rfc6402.py:479", Rfc6402.BodyPartList, Rfc6402.BodyPartList⟩,
   ⟨"rfc6402.py:481", Rfc4211.CertTemplate, Rfc4211.CertTemplate⟩,
   ⟨"rfc6402.py:493", Rfc5280.Extension, Rfc5280.Extension⟩,
   ⟨"rfc6402.py:508", Rfc6402.BodyPartID, Rfc6402.BodyPartID⟩,
   ⟨"rfc6402.py:509", Rfc6402.BodyPartID, Rfc6402.BodyPartID⟩,
   ⟨"rfc6402.py:532", Rfc5280.GeneralName, Rfc5280.GeneralName⟩,
   ⟨"rfc6402.py:546", Rfc6402.BodyPartID, Rfc6402.BodyPartID⟩,
   ⟨"rfc6402.py:547", Rfc6402.BodyPartID, Rfc6402.BodyPartID⟩,
   ⟨"rfc6402.py:548", Rfc5280.Extension, Rfc5280.Extension⟩,
   ⟨"rfc6402.py:557", Rfc6402.TaggedRequest, Rfc6402.TaggedRequest⟩,
   ⟨"rfc6402.py:558", Rfc5652.ContentInfo, Rfc5652.ContentInfo⟩,
   ⟨"rfc6402.py:559", Rfc5280.AlgorithmIdentifier, Rfc5280.AlgorithmIdentifier⟩,
   ⟨"rfc6402.py:560", Rfc5280.AlgorithmIdentifier, Rfc5280.AlgorithmIdentifier⟩,
   ⟨"rfc6402.py:583", Rfc6402.CMCStatusInfo, Rfc6402.CMCStatusInfo⟩,
   ⟨"rfc6402.py:584", Rfc6402.CMCStatusInfoV2, Rfc6402.CMCStatusInfoV2⟩,
   ⟨"rfc6402.py:587", Rfc6402.IdentifyProofV2, Rfc6402.IdentifyProofV2⟩,
   ⟨"rfc6402.py:592", Rfc6402.AddExtensions, Rfc6402.AddExtensions⟩,
   ⟨"rfc6402.py:593", Rfc6402.EncryptedPOP, Rfc6402.EncryptedPOP⟩,
   ⟨"rfc6402.py:594", Rfc6402.DecryptedPOP, Rfc6402.DecryptedPOP⟩,
   ⟨"rfc6402.py:595", Rfc6402.LraPopWitness, Rfc6402.LraPopWitness⟩,
   ⟨"rfc6402.py:596", Rfc6402.GetCert, Rfc6402.GetCert⟩,
   ⟨"rfc6402.py:597", Rfc6402.GetCRL, Rfc6402.GetCRL⟩,
   ⟨"rfc6402.py:598", Rfc6402.RevokeRequest, Rfc6402.RevokeRequest⟩,
   ⟨"rfc6402.py:604", Rfc6402.PopLinkWitnessV2, Rfc6402.PopLinkWitnessV2⟩,
   ⟨"rfc6402.py:605", Rfc6402.CMCCertId, Rfc6402.CMCCertId⟩,
   ⟨"rfc6402.py:606", Rfc6402.PublishTrustAnchors, Rfc6402.PublishTrustAnchors⟩,
   ⟨"rfc6402.py:607", Rfc6402.AuthPublish, Rfc6402.AuthPublish⟩,
   ⟨"rfc6402.py:608", Rfc6402.BodyPartList, Rfc6402.BodyPartList⟩,
   ⟨"rfc6402.py:609", Rfc6402.BodyPartList, Rfc6402.BodyPartList⟩,
   ⟨"rfc6402.py:610", Rfc6402.CMCPublicationInfo, Rfc6402.CMCPublicationInfo⟩,
   ⟨"rfc6402.py:611", Rfc6402.ModCertTemplate, Rfc6402.ModCertTemplate⟩,
   ⟨"rfc6402.py:612", Rfc6402.ControlsProcessed, Rfc6402.ControlsProcessed⟩,
   ⟨"rfc6402.py:613", Rfc6402.ExtensionReq, Rfc6402.ExtensionReq⟩,
   ⟨"rfc6402.py:623", Rfc6402.PKIData, Rfc6402.PKIData⟩,
   ⟨"rfc6402.py:624", Rfc6402.PKIResponse, Rfc6402.PKIResponse⟩]

/-- Functions rfc6402.py defines. -/
def builders : List (String × (List Py.OidArg → Py.Obj)) :=
  [("rfc6402._buildOid", Rfc6402._buildOid)]

def asModule : Py.Module :=
  { id := (Py.mod 93 "rfc6402"), imports := imports, effects := effects, classes := classes, objects := objects, protos := protos, snapshots := snapshots, builders := builders }

end Rfc6402
end Verif
