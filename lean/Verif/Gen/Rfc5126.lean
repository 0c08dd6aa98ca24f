import Verif.Py.Obj
import Verif.Gen.Rfc5280
import Verif.Gen.Rfc5652
import Verif.Gen.Rfc5035
import Verif.Gen.Rfc5755
import Verif.Gen.Rfc6960
import Verif.Gen.Rfc3161

/-! Transcription of /repo/pyasn1_modules/rfc5126.py (generated by tools/gen.py). -/

namespace Verif
namespace Rfc5126

/-- rfc5126.py:30 -/
def MAX : Py.Bound :=
  .inf

/-- rfc5126.py:35 -/
def commitmentQualifierMap : Py.Entries :=
  []

/-- rfc5126.py:37 -/
def sigQualifiersMap : Py.Entries :=
  []

/-- rfc5126.py:39 -/
def otherRevRefMap : Py.Entries :=
  []

/-- rfc5126.py:41 -/
def otherRevValMap : Py.Entries :=
  []

/-- rfc5126.py:46 alias of `rfc5652.ContentInfo` -/
def ContentInfo : Py.Obj :=
  Rfc5652.ContentInfo

/-- rfc5126.py:48 alias of `rfc5652.ContentType` -/
def ContentType : Py.Obj :=
  Rfc5652.ContentType

/-- rfc5126.py:50 alias of `rfc5652.SignedData` -/
def SignedData : Py.Obj :=
  Rfc5652.SignedData

/-- rfc5126.py:52 alias of `rfc5652.EncapsulatedContentInfo` -/
def EncapsulatedContentInfo : Py.Obj :=
  Rfc5652.EncapsulatedContentInfo

/-- rfc5126.py:54 alias of `rfc5652.SignerInfo` -/
def SignerInfo : Py.Obj :=
  Rfc5652.SignerInfo

/-- rfc5126.py:56 alias of `rfc5652.MessageDigest` -/
def MessageDigest : Py.Obj :=
  Rfc5652.MessageDigest

/-- rfc5126.py:58 alias of `rfc5652.SigningTime` -/
def SigningTime : Py.Obj :=
  Rfc5652.SigningTime

/-- rfc5126.py:60 alias of `rfc5652.Countersignature` -/
def Countersignature : Py.Obj :=
  Rfc5652.Countersignature

/-- rfc5126.py:62 alias of `rfc5652.id_data` -/
def id_data : Py.Obj :=
  Rfc5652.id_data

/-- rfc5126.py:64 alias of `rfc5652.id_signedData` -/
def id_signedData : Py.Obj :=
  Rfc5652.id_signedData

/-- rfc5126.py:66 alias of `rfc5652.id_contentType` -/
def id_contentType : Py.Obj :=
  Rfc5652.id_contentType

/-- rfc5126.py:68 alias of `rfc5652.id_messageDigest` -/
def id_messageDigest : Py.Obj :=
  Rfc5652.id_messageDigest

/-- rfc5126.py:70 alias of `rfc5652.id_signingTime` -/
def id_signingTime : Py.Obj :=
  Rfc5652.id_signingTime

/-- rfc5126.py:72 alias of `rfc5652.id_countersignature` -/
def id_countersignature : Py.Obj :=
  Rfc5652.id_countersignature

/-- rfc5126.py:77 alias of `rfc5035.SigningCertificate` -/
def SigningCertificate : Py.Obj :=
  Rfc5035.SigningCertificate

/-- rfc5126.py:79 alias of `rfc5035.IssuerSerial` -/
def IssuerSerial : Py.Obj :=
  Rfc5035.IssuerSerial

/-- rfc5126.py:81 alias of `rfc5035.ContentReference` -/
def ContentReference : Py.Obj :=
  Rfc5035.ContentReference

/-- rfc5126.py:83 alias of `rfc5035.ContentIdentifier` -/
def ContentIdentifier : Py.Obj :=
  Rfc5035.ContentIdentifier

/-- rfc5126.py:85 alias of `rfc5035.id_aa_contentReference` -/
def id_aa_contentReference : Py.Obj :=
  Rfc5035.id_aa_contentReference

/-- rfc5126.py:87 alias of `rfc5035.id_aa_contentIdentifier` -/
def id_aa_contentIdentifier : Py.Obj :=
  Rfc5035.id_aa_contentIdentifier

/-- rfc5126.py:89 alias of `rfc5035.id_aa_signingCertificate` -/
def id_aa_signingCertificate : Py.Obj :=
  Rfc5035.id_aa_signingCertificate

/-- rfc5126.py:91 alias of `rfc5035.id_aa_signingCertificateV2` -/
def id_aa_signingCertificateV2 : Py.Obj :=
  Rfc5035.id_aa_signingCertificateV2

/-- rfc5126.py:96 alias of `rfc5280.Certificate` -/
def Certificate : Py.Obj :=
  Rfc5280.Certificate

/-- rfc5126.py:98 alias of `rfc5280.AlgorithmIdentifier` -/
def AlgorithmIdentifier : Py.Obj :=
  Rfc5280.AlgorithmIdentifier

/-- rfc5126.py:100 alias of `rfc5280.CertificateList` -/
def CertificateList : Py.Obj :=
  Rfc5280.CertificateList

/-- rfc5126.py:102 alias of `rfc5280.Name` -/
def Name : Py.Obj :=
  Rfc5280.Name

/-- rfc5126.py:104 alias of `rfc5280.Attribute` -/
def Attribute : Py.Obj :=
  Rfc5280.Attribute

/-- rfc5126.py:106 alias of `rfc5280.GeneralNames` -/
def GeneralNames : Py.Obj :=
  Rfc5280.GeneralNames

/-- rfc5126.py:108 alias of `rfc5280.GeneralName` -/
def GeneralName : Py.Obj :=
  Rfc5280.GeneralName

/-- rfc5126.py:110 alias of `rfc5280.PolicyInformation` -/
def PolicyInformation : Py.Obj :=
  Rfc5280.PolicyInformation

/-- rfc5126.py:112 alias of `rfc5280.DirectoryString` -/
def DirectoryString : Py.Obj :=
  Rfc5280.DirectoryString

/-- rfc5126.py:117 alias of `rfc5755.AttributeCertificate` -/
def AttributeCertificate : Py.Obj :=
  Rfc5755.AttributeCertificate

/-- rfc5126.py:122 alias of `rfc6960.BasicOCSPResponse` -/
def BasicOCSPResponse : Py.Obj :=
  Rfc6960.BasicOCSPResponse

/-- rfc5126.py:124 alias of `rfc6960.ResponderID` -/
def ResponderID : Py.Obj :=
  Rfc6960.ResponderID

/-- rfc5126.py:129 alias of `rfc3161.TimeStampToken` -/
def TimeStampToken : Py.Obj :=
  Rfc3161.TimeStampToken

/-- rfc5126.py:134 -/
def id_etsi_es_IDUP_Mechanism_v1 : Py.Obj :=
  (Py.univ.ObjectIdentifier.call.callArcs [0, 4, 0, 1733, 1, 4, 1])

/-- rfc5126.py:139 -/
def id_aa_ets_otherSigCert : Py.Obj :=
  (Py.univ.ObjectIdentifier.call.callArcs [1, 2, 840, 113549, 1, 9, 16, 2, 19])

/-- rfc5126.py:142-143 `class OtherHashValue(univ.OctetString)` -/
def OtherHashValue : Py.Obj :=
  Py.univ.OctetString

/-- rfc5126.py:146-150 `class OtherHashAlgAndValue(univ.Sequence)` -/
def OtherHashAlgAndValue : Py.Obj :=
  Py.univ.Sequence.setComponentType (Py.NamedTypes [
    Py.NamedType "hashAlgorithm" Rfc5126.AlgorithmIdentifier.call,
    Py.NamedType "hashValue" Rfc5126.OtherHashValue.call])

/-- rfc5126.py:153-157 `class OtherHash(univ.Choice)` -/
def OtherHash : Py.Obj :=
  Py.univ.Choice.setComponentType (Py.NamedTypes [
    Py.NamedType "sha1Hash" Rfc5126.OtherHashValue.call,
    Py.NamedType "otherHash" Rfc5126.OtherHashAlgAndValue.call])

/-- rfc5126.py:160-164 `class OtherCertID(univ.Sequence)` -/
def OtherCertID : Py.Obj :=
  Py.univ.Sequence.setComponentType (Py.NamedTypes [
    Py.NamedType "otherCertHash" Rfc5126.OtherHash.call,
    Py.OptionalNamedType "issuerSerial" Rfc5126.IssuerSerial.call])

/-- rfc5126.py:167-173 `class OtherSigningCertificate(univ.Sequence)` -/
def OtherSigningCertificate : Py.Obj :=
  Py.univ.Sequence.setComponentType (Py.NamedTypes [
    Py.NamedType "certs" (Py.univ.SequenceOf.call.setComponentTypeOf Rfc5126.OtherCertID.call),
    Py.OptionalNamedType "policies" (Py.univ.SequenceOf.call.setComponentTypeOf Rfc5126.PolicyInformation.call)])

/-- rfc5126.py:178 -/
def id_aa_ets_sigPolicyId : Py.Obj :=
  (Py.univ.ObjectIdentifier.call.callArcs [1, 2, 840, 113549, 1, 9, 16, 2, 15])

/-- rfc5126.py:181-182 `class SigPolicyId(univ.ObjectIdentifier)` -/
def SigPolicyId : Py.Obj :=
  Py.univ.ObjectIdentifier

/-- rfc5126.py:185-186 `class SigPolicyHash(OtherHashAlgAndValue)` -/
def SigPolicyHash : Py.Obj :=
  Rfc5126.OtherHashAlgAndValue

/-- rfc5126.py:189-190 `class SigPolicyQualifierId(univ.ObjectIdentifier)` -/
def SigPolicyQualifierId : Py.Obj :=
  Py.univ.ObjectIdentifier

/-- rfc5126.py:193-198 `class SigPolicyQualifierInfo(univ.Sequence)` -/
def SigPolicyQualifierInfo : Py.Obj :=
  Py.univ.Sequence.setComponentType (Py.NamedTypes [
    Py.NamedType "sigPolicyQualifierId" Rfc5126.SigPolicyQualifierId.call,
    Py.NamedType "sigQualifier" Py.univ.Any.call (openType := some (Py.OpenType "sigPolicyQualifierId" (Py.map 21 "rfc5126.sigQualifiersMap")))])

/-- rfc5126.py:201-208 `class SignaturePolicyId(univ.Sequence)` -/
def SignaturePolicyId : Py.Obj :=
  Py.univ.Sequence.setComponentType (Py.NamedTypes [
    Py.NamedType "sigPolicyId" Rfc5126.SigPolicyId.call,
    Py.NamedType "sigPolicyHash" Rfc5126.SigPolicyHash.call,
    Py.OptionalNamedType "sigPolicyQualifiers" ((Py.univ.SequenceOf.call.setComponentTypeOf Rfc5126.SigPolicyQualifierInfo.call).addSubtypeSpec (Py.ValueSizeConstraint (.fin 1) Rfc5126.MAX))])

/-- rfc5126.py:211-212 `class SignaturePolicyImplied(univ.Null)` -/
def SignaturePolicyImplied : Py.Obj :=
  Py.univ.Null

/-- rfc5126.py:215-219 `class SignaturePolicy(univ.Choice)` -/
def SignaturePolicy : Py.Obj :=
  Py.univ.Choice.setComponentType (Py.NamedTypes [
    Py.NamedType "signaturePolicyId" Rfc5126.SignaturePolicyId.call,
    Py.NamedType "signaturePolicyImplied" Rfc5126.SignaturePolicyImplied.call])

/-- rfc5126.py:222 -/
def id_spq_ets_unotice : Py.Obj :=
  (Py.univ.ObjectIdentifier.call.callArcs [1, 2, 840, 113549, 1, 9, 16, 5, 2])

/-- rfc5126.py:225-233 `class DisplayText(univ.Choice)` -/
def DisplayText : Py.Obj :=
  Py.univ.Choice.setComponentType (Py.NamedTypes [
    Py.NamedType "visibleString" (Py.char.VisibleString.call.addSubtypeSpec (Py.ValueSizeConstraint (.fin 1) (.fin 200))),
    Py.NamedType "bmpString" (Py.char.BMPString.call.addSubtypeSpec (Py.ValueSizeConstraint (.fin 1) (.fin 200))),
    Py.NamedType "utf8String" (Py.char.UTF8String.call.addSubtypeSpec (Py.ValueSizeConstraint (.fin 1) (.fin 200)))])

/-- rfc5126.py:236-241 `class NoticeReference(univ.Sequence)` -/
def NoticeReference : Py.Obj :=
  Py.univ.Sequence.setComponentType (Py.NamedTypes [
    Py.NamedType "organization" Rfc5126.DisplayText.call,
    Py.NamedType "noticeNumbers" (Py.univ.SequenceOf.call.setComponentTypeOf Py.univ.Integer.call)])

/-- rfc5126.py:243-247 `class SPUserNotice(univ.Sequence)` -/
def SPUserNotice : Py.Obj :=
  Py.univ.Sequence.setComponentType (Py.NamedTypes [
    Py.OptionalNamedType "noticeRef" Rfc5126.NoticeReference.call,
    Py.OptionalNamedType "explicitText" Rfc5126.DisplayText.call])

/-- rfc5126.py:250 -/
def noticeToUser__0 : Py.Proto :=
  { obj := Rfc5126.SigPolicyQualifierInfo.call }

/-- rfc5126.py:251 `noticeToUser['sigPolicyQualifierId'] = ...` -/
def noticeToUser__1 : Py.Proto :=
  Rfc5126.noticeToUser__0.set "sigPolicyQualifierId" (.obj Rfc5126.id_spq_ets_unotice)

/-- rfc5126.py:252 `noticeToUser['sigQualifier'] = ...` -/
def noticeToUser : Py.Proto :=
  Rfc5126.noticeToUser__1.set "sigQualifier" (.obj Rfc5126.SPUserNotice.call)

/-- rfc5126.py:255 -/
def id_spq_ets_uri : Py.Obj :=
  (Py.univ.ObjectIdentifier.call.callArcs [1, 2, 840, 113549, 1, 9, 16, 5, 1])

/-- rfc5126.py:258-259 `class SPuri(char.IA5String)` -/
def SPuri : Py.Obj :=
  Py.char.IA5String

/-- rfc5126.py:262 -/
def pointerToSigPolSpec__0 : Py.Proto :=
  { obj := Rfc5126.SigPolicyQualifierInfo.call }

/-- rfc5126.py:263 `pointerToSigPolSpec['sigPolicyQualifierId'] = ...` -/
def pointerToSigPolSpec__1 : Py.Proto :=
  Rfc5126.pointerToSigPolSpec__0.set "sigPolicyQualifierId" (.obj Rfc5126.id_spq_ets_uri)

/-- rfc5126.py:264 `pointerToSigPolSpec['sigQualifier'] = ...` -/
def pointerToSigPolSpec : Py.Proto :=
  Rfc5126.pointerToSigPolSpec__1.set "sigQualifier" (.obj Rfc5126.SPuri.call)

/-- rfc5126.py:269 -/
def id_aa_ets_commitmentType : Py.Obj :=
  (Py.univ.ObjectIdentifier.call.callArcs [1, 2, 840, 113549, 1, 9, 16, 2, 16])

/-- rfc5126.py:272-273 `class CommitmentTypeIdentifier(univ.ObjectIdentifier)` -/
def CommitmentTypeIdentifier : Py.Obj :=
  Py.univ.ObjectIdentifier

/-- rfc5126.py:276-283 `class CommitmentTypeQualifier(univ.Sequence)` -/
def CommitmentTypeQualifier : Py.Obj :=
  Py.univ.Sequence.setComponentType (Py.NamedTypes [
    Py.NamedType "commitmentTypeIdentifier" Rfc5126.CommitmentTypeIdentifier.call,
    Py.NamedType "qualifier" Py.univ.Any.call (openType := some (Py.OpenType "commitmentTypeIdentifier" (Py.map 22 "rfc5126.commitmentQualifierMap")))])

/-- rfc5126.py:286-292 `class CommitmentTypeIndication(univ.Sequence)` -/
def CommitmentTypeIndication : Py.Obj :=
  Py.univ.Sequence.setComponentType (Py.NamedTypes [
    Py.NamedType "commitmentTypeId" Rfc5126.CommitmentTypeIdentifier.call,
    Py.OptionalNamedType "commitmentTypeQualifier" ((Py.univ.SequenceOf.call.setComponentTypeOf Rfc5126.CommitmentTypeQualifier.call).addSubtypeSpec (Py.ValueSizeConstraint (.fin 1) Rfc5126.MAX))])

/-- rfc5126.py:295 -/
def id_cti_ets_proofOfOrigin : Py.Obj :=
  (Py.univ.ObjectIdentifier.call.callArcs [1, 2, 840, 113549, 1, 9, 16, 6, 1])

/-- rfc5126.py:297 -/
def id_cti_ets_proofOfReceipt : Py.Obj :=
  (Py.univ.ObjectIdentifier.call.callArcs [1, 2, 840, 113549, 1, 9, 16, 6, 2])

/-- rfc5126.py:299 -/
def id_cti_ets_proofOfDelivery : Py.Obj :=
  (Py.univ.ObjectIdentifier.call.callArcs [1, 2, 840, 113549, 1, 9, 16, 6, 3])

/-- rfc5126.py:301 -/
def id_cti_ets_proofOfSender : Py.Obj :=
  (Py.univ.ObjectIdentifier.call.callArcs [1, 2, 840, 113549, 1, 9, 16, 6, 4])

/-- rfc5126.py:303 -/
def id_cti_ets_proofOfApproval : Py.Obj :=
  (Py.univ.ObjectIdentifier.call.callArcs [1, 2, 840, 113549, 1, 9, 16, 6, 5])

/-- rfc5126.py:305 -/
def id_cti_ets_proofOfCreation : Py.Obj :=
  (Py.univ.ObjectIdentifier.call.callArcs [1, 2, 840, 113549, 1, 9, 16, 6, 6])

/-- rfc5126.py:310 -/
def id_aa_ets_signerLocation : Py.Obj :=
  (Py.univ.ObjectIdentifier.call.callArcs [1, 2, 840, 113549, 1, 9, 16, 2, 17])

/-- rfc5126.py:313-315 `class PostalAddress(univ.SequenceOf)` -/
def PostalAddress : Py.Obj :=
  (Py.univ.SequenceOf.setComponentTypeOf Rfc5126.DirectoryString.call).setSubtypeSpec (Py.ValueSizeConstraint (.fin 1) (.fin 6))

/-- rfc5126.py:318-329 `class SignerLocation(univ.Sequence)` -/
def SignerLocation : Py.Obj :=
  Py.univ.Sequence.setComponentType (Py.NamedTypes [
    Py.OptionalNamedType "countryName" (Rfc5126.DirectoryString.call.explicitTag (Py.Tag .context false 0)),
    Py.OptionalNamedType "localityName" (Rfc5126.DirectoryString.call.explicitTag (Py.Tag .context false 1)),
    Py.OptionalNamedType "postalAdddress" (Rfc5126.PostalAddress.call.explicitTag (Py.Tag .context false 2))])

/-- rfc5126.py:334 -/
def id_aa_signatureTimeStampToken : Py.Obj :=
  (Py.univ.ObjectIdentifier.call.callArcs [1, 2, 840, 113549, 1, 9, 16, 2, 14])

/-- rfc5126.py:337-338 `class SignatureTimeStampToken(TimeStampToken)` -/
def SignatureTimeStampToken : Py.Obj :=
  Rfc5126.TimeStampToken

/-- rfc5126.py:343 -/
def id_aa_ets_contentTimestamp : Py.Obj :=
  (Py.univ.ObjectIdentifier.call.callArcs [1, 2, 840, 113549, 1, 9, 16, 2, 20])

/-- rfc5126.py:346-347 `class ContentTimestamp(TimeStampToken)` -/
def ContentTimestamp : Py.Obj :=
  Rfc5126.TimeStampToken

/-- rfc5126.py:352 -/
def id_aa_ets_signerAttr : Py.Obj :=
  (Py.univ.ObjectIdentifier.call.callArcs [1, 2, 840, 113549, 1, 9, 16, 2, 18])

/-- rfc5126.py:355-356 `class ClaimedAttributes(univ.SequenceOf)` -/
def ClaimedAttributes : Py.Obj :=
  Py.univ.SequenceOf.setComponentTypeOf Rfc5126.Attribute.call

/-- rfc5126.py:359-360 `class CertifiedAttributes(AttributeCertificate)` -/
def CertifiedAttributes : Py.Obj :=
  Rfc5126.AttributeCertificate

/-- rfc5126.py:363-371 `class SignerAttribute(univ.SequenceOf)` -/
def SignerAttribute : Py.Obj :=
  Py.univ.SequenceOf.setComponentTypeOf (Py.univ.Choice.call.setComponentType (Py.NamedTypes [
    Py.NamedType "claimedAttributes" (Rfc5126.ClaimedAttributes.call.explicitTag (Py.Tag .context false 0)),
    Py.NamedType "certifiedAttributes" (Rfc5126.CertifiedAttributes.call.explicitTag (Py.Tag .context false 1))]))

/-- rfc5126.py:376 -/
def id_aa_ets_certificateRefs : Py.Obj :=
  (Py.univ.ObjectIdentifier.call.callArcs [1, 2, 840, 113549, 1, 9, 16, 2, 21])

/-- rfc5126.py:379-380 `class CompleteCertificateRefs(univ.SequenceOf)` -/
def CompleteCertificateRefs : Py.Obj :=
  Py.univ.SequenceOf.setComponentTypeOf Rfc5126.OtherCertID.call

/-- rfc5126.py:385 -/
def id_aa_ets_revocationRefs : Py.Obj :=
  (Py.univ.ObjectIdentifier.call.callArcs [1, 2, 840, 113549, 1, 9, 16, 2, 22])

/-- rfc5126.py:388-393 `class CrlIdentifier(univ.Sequence)` -/
def CrlIdentifier : Py.Obj :=
  Py.univ.Sequence.setComponentType (Py.NamedTypes [
    Py.NamedType "crlissuer" Rfc5126.Name.call,
    Py.NamedType "crlIssuedTime" Py.useful.UTCTime.call,
    Py.OptionalNamedType "crlNumber" Py.univ.Integer.call])

/-- rfc5126.py:396-400 `class CrlValidatedID(univ.Sequence)` -/
def CrlValidatedID : Py.Obj :=
  Py.univ.Sequence.setComponentType (Py.NamedTypes [
    Py.NamedType "crlHash" Rfc5126.OtherHash.call,
    Py.OptionalNamedType "crlIdentifier" Rfc5126.CrlIdentifier.call])

/-- rfc5126.py:403-407 `class CRLListID(univ.Sequence)` -/
def CRLListID : Py.Obj :=
  Py.univ.Sequence.setComponentType (Py.NamedTypes [
    Py.NamedType "crls" (Py.univ.SequenceOf.call.setComponentTypeOf Rfc5126.CrlValidatedID.call)])

/-- rfc5126.py:410-414 `class OcspIdentifier(univ.Sequence)` -/
def OcspIdentifier : Py.Obj :=
  Py.univ.Sequence.setComponentType (Py.NamedTypes [
    Py.NamedType "ocspResponderID" Rfc5126.ResponderID.call,
    Py.NamedType "producedAt" Py.useful.GeneralizedTime.call])

/-- rfc5126.py:417-421 `class OcspResponsesID(univ.Sequence)` -/
def OcspResponsesID : Py.Obj :=
  Py.univ.Sequence.setComponentType (Py.NamedTypes [
    Py.NamedType "ocspIdentifier" Rfc5126.OcspIdentifier.call,
    Py.OptionalNamedType "ocspRepHash" Rfc5126.OtherHash.call])

/-- rfc5126.py:424-428 `class OcspListID(univ.Sequence)` -/
def OcspListID : Py.Obj :=
  Py.univ.Sequence.setComponentType (Py.NamedTypes [
    Py.NamedType "ocspResponses" (Py.univ.SequenceOf.call.setComponentTypeOf Rfc5126.OcspResponsesID.call)])

/-- rfc5126.py:431-432 `class OtherRevRefType(univ.ObjectIdentifier)` -/
def OtherRevRefType : Py.Obj :=
  Py.univ.ObjectIdentifier

/-- rfc5126.py:435-440 `class OtherRevRefs(univ.Sequence)` -/
def OtherRevRefs : Py.Obj :=
  Py.univ.Sequence.setComponentType (Py.NamedTypes [
    Py.NamedType "otherRevRefType" Rfc5126.OtherRevRefType.call,
    Py.NamedType "otherRevRefs" Py.univ.Any.call (openType := some (Py.OpenType "otherRevRefType" (Py.map 23 "rfc5126.otherRevRefMap")))])

/-- rfc5126.py:443-454 `class CrlOcspRef(univ.Sequence)` -/
def CrlOcspRef : Py.Obj :=
  Py.univ.Sequence.setComponentType (Py.NamedTypes [
    Py.OptionalNamedType "crlids" (Rfc5126.CRLListID.call.explicitTag (Py.Tag .context true 0)),
    Py.OptionalNamedType "ocspids" (Rfc5126.OcspListID.call.explicitTag (Py.Tag .context true 1)),
    Py.OptionalNamedType "otherRev" (Rfc5126.OtherRevRefs.call.explicitTag (Py.Tag .context true 2))])

/-- rfc5126.py:457-458 `class CompleteRevocationRefs(univ.SequenceOf)` -/
def CompleteRevocationRefs : Py.Obj :=
  Py.univ.SequenceOf.setComponentTypeOf Rfc5126.CrlOcspRef.call

/-- rfc5126.py:463 -/
def id_aa_ets_certValues : Py.Obj :=
  (Py.univ.ObjectIdentifier.call.callArcs [1, 2, 840, 113549, 1, 9, 16, 2, 23])

/-- rfc5126.py:466-467 `class CertificateValues(univ.SequenceOf)` -/
def CertificateValues : Py.Obj :=
  Py.univ.SequenceOf.setComponentTypeOf Rfc5126.Certificate.call

/-- rfc5126.py:472 -/
def id_aa_ets_revocationValues : Py.Obj :=
  (Py.univ.ObjectIdentifier.call.callArcs [1, 2, 840, 113549, 1, 9, 16, 2, 24])

/-- rfc5126.py:475-476 `class OtherRevValType(univ.ObjectIdentifier)` -/
def OtherRevValType : Py.Obj :=
  Py.univ.ObjectIdentifier

/-- rfc5126.py:479-484 `class OtherRevVals(univ.Sequence)` -/
def OtherRevVals : Py.Obj :=
  Py.univ.Sequence.setComponentType (Py.NamedTypes [
    Py.NamedType "otherRevValType" Rfc5126.OtherRevValType.call,
    Py.NamedType "otherRevVals" Py.univ.Any.call (openType := some (Py.OpenType "otherRevValType" (Py.map 24 "rfc5126.otherRevValMap")))])

/-- rfc5126.py:487-498 `class RevocationValues(univ.Sequence)` -/
def RevocationValues : Py.Obj :=
  Py.univ.Sequence.setComponentType (Py.NamedTypes [
    Py.OptionalNamedType "crlVals" ((Py.univ.SequenceOf.call.setComponentTypeOf Rfc5126.CertificateList.call).explicitTag (Py.Tag .context false 0)),
    Py.OptionalNamedType "ocspVals" ((Py.univ.SequenceOf.call.setComponentTypeOf Rfc5126.BasicOCSPResponse.call).explicitTag (Py.Tag .context false 1)),
    Py.OptionalNamedType "otherRevVals" (Rfc5126.OtherRevVals.call.explicitTag (Py.Tag .context true 2))])

/-- rfc5126.py:503 -/
def id_aa_ets_escTimeStamp : Py.Obj :=
  (Py.univ.ObjectIdentifier.call.callArcs [1, 2, 840, 113549, 1, 9, 16, 2, 25])

/-- rfc5126.py:506-507 `class ESCTimeStampToken(TimeStampToken)` -/
def ESCTimeStampToken : Py.Obj :=
  Rfc5126.TimeStampToken

/-- rfc5126.py:512 -/
def id_aa_ets_certCRLTimestamp : Py.Obj :=
  (Py.univ.ObjectIdentifier.call.callArcs [1, 2, 840, 113549, 1, 9, 16, 2, 26])

/-- rfc5126.py:515-516 `class TimestampedCertsCRLs(TimeStampToken)` -/
def TimestampedCertsCRLs : Py.Obj :=
  Rfc5126.TimeStampToken

/-- rfc5126.py:521 -/
def id_aa_ets_archiveTimestampV2 : Py.Obj :=
  (Py.univ.ObjectIdentifier.call.callArcs [1, 2, 840, 113549, 1, 9, 16, 2, 48])

/-- rfc5126.py:524-525 `class ArchiveTimeStampToken(TimeStampToken)` -/
def ArchiveTimeStampToken : Py.Obj :=
  Rfc5126.TimeStampToken

/-- rfc5126.py:530 -/
def id_aa_ets_attrCertificateRefs : Py.Obj :=
  (Py.univ.ObjectIdentifier.call.callArcs [1, 2, 840, 113549, 1, 9, 16, 2, 44])

/-- rfc5126.py:533-534 `class AttributeCertificateRefs(univ.SequenceOf)` -/
def AttributeCertificateRefs : Py.Obj :=
  Py.univ.SequenceOf.setComponentTypeOf Rfc5126.OtherCertID.call

/-- rfc5126.py:539 -/
def id_aa_ets_attrRevocationRefs : Py.Obj :=
  (Py.univ.ObjectIdentifier.call.callArcs [1, 2, 840, 113549, 1, 9, 16, 2, 45])

/-- rfc5126.py:542-543 `class AttributeRevocationRefs(univ.SequenceOf)` -/
def AttributeRevocationRefs : Py.Obj :=
  Py.univ.SequenceOf.setComponentTypeOf Rfc5126.CrlOcspRef.call

/-- rfc5126.py:548-551 -/
def _sigQualifiersMapUpdate : Py.Entries :=
  [(Rfc5126.id_spq_ets_unotice.value, Rfc5126.SPUserNotice.call.ty),
    (Rfc5126.id_spq_ets_uri.value, Rfc5126.SPuri.call.ty)]

/-- rfc5126.py:558-575 -/
def _cmsAttributesMapUpdate : Py.Entries :=
  [(Rfc5126.id_aa_ets_otherSigCert.value, Rfc5126.OtherSigningCertificate.call.ty),
    (Rfc5126.id_aa_ets_sigPolicyId.value, Rfc5126.SignaturePolicy.call.ty),
    (Rfc5126.id_aa_ets_commitmentType.value, Rfc5126.CommitmentTypeIndication.call.ty),
    (Rfc5126.id_aa_ets_signerLocation.value, Rfc5126.SignerLocation.call.ty),
    (Rfc5126.id_aa_signatureTimeStampToken.value, Rfc5126.SignatureTimeStampToken.call.ty),
    (Rfc5126.id_aa_ets_contentTimestamp.value, Rfc5126.ContentTimestamp.call.ty),
    (Rfc5126.id_aa_ets_signerAttr.value, Rfc5126.SignerAttribute.call.ty),
    (Rfc5126.id_aa_ets_certificateRefs.value, Rfc5126.CompleteCertificateRefs.call.ty),
    (Rfc5126.id_aa_ets_revocationRefs.value, Rfc5126.CompleteRevocationRefs.call.ty),
    (Rfc5126.id_aa_ets_certValues.value, Rfc5126.CertificateValues.call.ty),
    (Rfc5126.id_aa_ets_revocationValues.value, Rfc5126.RevocationValues.call.ty),
    (Rfc5126.id_aa_ets_escTimeStamp.value, Rfc5126.ESCTimeStampToken.call.ty),
    (Rfc5126.id_aa_ets_certCRLTimestamp.value, Rfc5126.TimestampedCertsCRLs.call.ty),
    (Rfc5126.id_aa_ets_archiveTimestampV2.value, Rfc5126.ArchiveTimeStampToken.call.ty),
    (Rfc5126.id_aa_ets_attrCertificateRefs.value, Rfc5126.AttributeCertificateRefs.call.ty),
    (Rfc5126.id_aa_ets_attrRevocationRefs.value, Rfc5126.AttributeRevocationRefs.call.ty)]

/-- Modules of this package imported by rfc5126.py, in textual order. -/
def imports : List Py.Ident :=
  [(Py.mod 15 "rfc5280"), (Py.mod 16 "rfc5652"), (Py.mod 65 "rfc5035"), (Py.mod 27 "rfc5755"), (Py.mod 68 "rfc6960"), (Py.mod 31 "rfc3161")]

/-- Dictionary operations executed when rfc5126.py is imported, in program order. -/
def effects : List Py.Effect :=
  [.create (Py.map 22 "rfc5126.commitmentQualifierMap") Rfc5126.commitmentQualifierMap /- rfc5126.py:35 -/,
   .create (Py.map 21 "rfc5126.sigQualifiersMap") Rfc5126.sigQualifiersMap /- rfc5126.py:37 -/,
   .create (Py.map 23 "rfc5126.otherRevRefMap") Rfc5126.otherRevRefMap /- rfc5126.py:39 -/,
   .create (Py.map 24 "rfc5126.otherRevValMap") Rfc5126.otherRevValMap /- rfc5126.py:41 -/,
   .create (Py.map 75 "rfc5126._sigQualifiersMapUpdate") Rfc5126._sigQualifiersMapUpdate /- rfc5126.py:548-551 -/,
   .update (Py.map 21 "rfc5126.sigQualifiersMap") Rfc5126._sigQualifiersMapUpdate /- rfc5126.py:553 -/,
   .create (Py.map 76 "rfc5126._cmsAttributesMapUpdate") Rfc5126._cmsAttributesMapUpdate /- rfc5126.py:558-575 -/,
   .update (Py.map 8 "rfc5652.cmsAttributesMap") Rfc5126._cmsAttributesMapUpdate /- rfc5126.py:577 -/]

/-- ASN.1 types rfc5126.py binds at module level (final version of each name), plus nested classes. -/
def classes : List (String × Py.Obj) :=
  [("rfc5126.ContentInfo", Rfc5126.ContentInfo),
   ("rfc5126.ContentType", Rfc5126.ContentType),
   ("rfc5126.SignedData", Rfc5126.SignedData),
   ("rfc5126.EncapsulatedContentInfo", Rfc5126.EncapsulatedContentInfo),
   ("rfc5126.SignerInfo", Rfc5126.SignerInfo),
   ("rfc5126.MessageDigest", Rfc5126.MessageDigest),
   ("rfc5126.SigningTime", Rfc5126.SigningTime),
   ("rfc5126.Countersignature", Rfc5126.Countersignature),
   ("rfc5126.SigningCertificate", Rfc5126.SigningCertificate),
   ("rfc5126.IssuerSerial", Rfc5126.IssuerSerial),
   ("rfc5126.ContentReference", Rfc5126.ContentReference),
   ("rfc5126.ContentIdentifier", Rfc5126.ContentIdentifier),
   ("rfc5126.Certificate", Rfc5126.Certificate),
   ("rfc5126.AlgorithmIdentifier", Rfc5126.AlgorithmIdentifier),
   ("rfc5126.CertificateList", Rfc5126.CertificateList),
   ("rfc5126.Name", Rfc5126.Name),
   ("rfc5126.Attribute", Rfc5126.Attribute),
   ("rfc5126.GeneralNames", Rfc5126.GeneralNames),
   ("rfc5126.GeneralName", Rfc5126.GeneralName),
   ("rfc5126.PolicyInformation", Rfc5126.PolicyInformation),
   ("rfc5126.DirectoryString", Rfc5126.DirectoryString),
   ("rfc5126.AttributeCertificate", Rfc5126.AttributeCertificate),
   ("rfc5126.BasicOCSPResponse", Rfc5126.BasicOCSPResponse),
   ("rfc5126.ResponderID", Rfc5126.ResponderID),
   ("rfc5126.TimeStampToken", Rfc5126.TimeStampToken),
   ("rfc5126.OtherHashValue", Rfc5126.OtherHashValue),
   ("rfc5126.OtherHashAlgAndValue", Rfc5126.OtherHashAlgAndValue),
   ("rfc5126.OtherHash", Rfc5126.OtherHash),
   ("rfc5126.OtherCertID", Rfc5126.OtherCertID),
   ("rfc5126.OtherSigningCertificate", Rfc5126.OtherSigningCertificate),
   ("rfc5126.SigPolicyId", Rfc5126.SigPolicyId),
   ("rfc5126.SigPolicyHash", Rfc5126.SigPolicyHash),
   ("rfc5126.SigPolicyQualifierId", Rfc5126.SigPolicyQualifierId),
   ("rfc5126.SigPolicyQualifierInfo", Rfc5126.SigPolicyQualifierInfo),
   ("rfc5126.SignaturePolicyId", Rfc5126.SignaturePolicyId),
   ("rfc5126.SignaturePolicyImplied", Rfc5126.SignaturePolicyImplied),
   ("rfc5126.SignaturePolicy", Rfc5126.SignaturePolicy),
   ("rfc5126.DisplayText", Rfc5126.DisplayText),
   ("rfc5126.NoticeReference", Rfc5126.NoticeReference),
   ("rfc5126.SPUserNotice", Rfc5126.SPUserNotice),
   ("rfc5126.SPuri", Rfc5126.SPuri),
   ("rfc5126.CommitmentTypeIdentifier", Rfc5126.CommitmentTypeIdentifier),
   ("rfc5126.CommitmentTypeQualifier", Rfc5126.CommitmentTypeQualifier),
   ("rfc5126.CommitmentTypeIndication", Rfc5126.CommitmentTypeIndication),
   ("rfc5126.PostalAddress", Rfc5126.PostalAddress),
   ("rfc5126.SignerLocation", Rfc5126.SignerLocation),
   ("rfc5126.SignatureTimeStampToken", Rfc5126.SignatureTimeStampToken),
   ("rfc5126.ContentTimestamp", Rfc5126.ContentTimestamp),
   ("rfc5126.ClaimedAttributes", Rfc5126.ClaimedAttributes),
   ("rfc5126.CertifiedAttributes", Rfc5126.CertifiedAttributes),
   ("rfc5126.SignerAttribute", Rfc5126.SignerAttribute),
   ("rfc5126.CompleteCertificateRefs", Rfc5126.CompleteCertificateRefs),
   ("rfc5126.CrlIdentifier", Rfc5126.CrlIdentifier),
   ("rfc5126.CrlValidatedID", Rfc5126.CrlValidatedID),
   ("rfc5126.CRLListID", Rfc5126.CRLListID),
   ("rfc5126.OcspIdentifier", Rfc5126.OcspIdentifier),
   ("rfc5126.OcspResponsesID", Rfc5126.OcspResponsesID),
   ("rfc5126.OcspListID", Rfc5126.OcspListID),
   ("rfc5126.OtherRevRefType", Rfc5126.OtherRevRefType),
   ("rfc5126.OtherRevRefs", Rfc5126.OtherRevRefs),
   ("rfc5126.CrlOcspRef", Rfc5126.CrlOcspRef),
   ("rfc5126.CompleteRevocationRefs", Rfc5126.CompleteRevocationRefs),
   ("rfc5126.CertificateValues", Rfc5126.CertificateValues),
   ("rfc5126.OtherRevValType", Rfc5126.OtherRevValType),
   ("rfc5126.OtherRevVals", Rfc5126.OtherRevVals),
   ("rfc5126.RevocationValues", Rfc5126.RevocationValues),
   ("rfc5126.ESCTimeStampToken", Rfc5126.ESCTimeStampToken),
   ("rfc5126.TimestampedCertsCRLs", Rfc5126.TimestampedCertsCRLs),
   ("rfc5126.ArchiveTimeStampToken", Rfc5126.ArchiveTimeStampToken),
   ("rfc5126.AttributeCertificateRefs", Rfc5126.AttributeCertificateRefs),
   ("rfc5126.AttributeRevocationRefs", Rfc5126.AttributeRevocationRefs)]

/-- pyasn1 instances rfc5126.py binds at module level. -/
def objects : List (String × Py.Obj) :=
  [("rfc5126.id_data", Rfc5126.id_data),
   ("rfc5126.id_signedData", Rfc5126.id_signedData),
   ("rfc5126.id_contentType", Rfc5126.id_contentType),
   ("rfc5126.id_messageDigest", Rfc5126.id_messageDigest),
   ("rfc5126.id_signingTime", Rfc5126.id_signingTime),
   ("rfc5126.id_countersignature", Rfc5126.id_countersignature),
   ("rfc5126.id_aa_contentReference", Rfc5126.id_aa_contentReference),
   ("rfc5126.id_aa_contentIdentifier", Rfc5126.id_aa_contentIdentifier),
   ("rfc5126.id_aa_signingCertificate", Rfc5126.id_aa_signingCertificate),
   ("rfc5126.id_aa_signingCertificateV2", Rfc5126.id_aa_signingCertificateV2),
   ("rfc5126.id_etsi_es_IDUP_Mechanism_v1", Rfc5126.id_etsi_es_IDUP_Mechanism_v1),
   ("rfc5126.id_aa_ets_otherSigCert", Rfc5126.id_aa_ets_otherSigCert),
   ("rfc5126.id_aa_ets_sigPolicyId", Rfc5126.id_aa_ets_sigPolicyId),
   ("rfc5126.id_spq_ets_unotice", Rfc5126.id_spq_ets_unotice),
   ("rfc5126.id_spq_ets_uri", Rfc5126.id_spq_ets_uri),
   ("rfc5126.id_aa_ets_commitmentType", Rfc5126.id_aa_ets_commitmentType),
   ("rfc5126.id_cti_ets_proofOfOrigin", Rfc5126.id_cti_ets_proofOfOrigin),
   ("rfc5126.id_cti_ets_proofOfReceipt", Rfc5126.id_cti_ets_proofOfReceipt),
   ("rfc5126.id_cti_ets_proofOfDelivery", Rfc5126.id_cti_ets_proofOfDelivery),
   ("rfc5126.id_cti_ets_proofOfSender", Rfc5126.id_cti_ets_proofOfSender),
   ("rfc5126.id_cti_ets_proofOfApproval", Rfc5126.id_cti_ets_proofOfApproval),
   ("rfc5126.id_cti_ets_proofOfCreation", Rfc5126.id_cti_ets_proofOfCreation),
   ("rfc5126.id_aa_ets_signerLocation", Rfc5126.id_aa_ets_signerLocation),
   ("rfc5126.id_aa_signatureTimeStampToken", Rfc5126.id_aa_signatureTimeStampToken),
   ("rfc5126.id_aa_ets_contentTimestamp", Rfc5126.id_aa_ets_contentTimestamp),
   ("rfc5126.id_aa_ets_signerAttr", Rfc5126.id_aa_ets_signerAttr),
   ("rfc5126.id_aa_ets_certificateRefs", Rfc5126.id_aa_ets_certificateRefs),
   ("rfc5126.id_aa_ets_revocationRefs", Rfc5126.id_aa_ets_revocationRefs),
   ("rfc5126.id_aa_ets_certValues", Rfc5126.id_aa_ets_certValues),
   ("rfc5126.id_aa_ets_revocationValues", Rfc5126.id_aa_ets_revocationValues),
   ("rfc5126.id_aa_ets_escTimeStamp", Rfc5126.id_aa_ets_escTimeStamp),
   ("rfc5126.id_aa_ets_certCRLTimestamp", Rfc5126.id_aa_ets_certCRLTimestamp),
   ("rfc5126.id_aa_ets_archiveTimestampV2", Rfc5126.id_aa_ets_archiveTimestampV2),
   ("rfc5126.id_aa_ets_attrCertificateRefs", Rfc5126.id_aa_ets_attrCertificateRefs),
   ("rfc5126.id_aa_ets_attrRevocationRefs", Rfc5126.id_aa_ets_attrRevocationRefs)]

/-- pyasn1 instances rfc5126.py fills in by item assignment. -/
def protos : List (String × Py.Proto) :=
  [("rfc5126.noticeToUser", Rfc5126.noticeToUser),
   ("rfc5126.pointerToSigPolSpec", Rfc5126.pointerToSigPolSpec)]

/-- Every place of rfc5126.py that instantiates a class of the package: where, the class as it is
at that point, and the class as it is when the import has finished. -/
def snapshots : List Py.Snapshot :=
  [⟨"rfc5126.py:148", Rfc5126.AlgorithmIdentifier, Rfc5126.AlgorithmIdentifier⟩,
   ⟨"rfc5126.py:149", Rfc5126.OtherHashValue, Rfc5126.OtherHashValue⟩,
   ⟨"rfc5126.py:155", Rfc5126.OtherHashValue, Rfc5126.OtherHashValue⟩,
   ⟨"rfc5126.py:156", Rfc5126.OtherHashAlgAndValue, Rfc5126.OtherHashAlgAndValue⟩,
   ⟨"rfc5126.py:162", Rfc5126.OtherHash, Rfc5126.OtherHash⟩,
   ⟨"rfc5126.py:163", Rfc5126.IssuerSerial, Rfc5126.IssuerSerial⟩,
   ⟨"rfc5126.py:170", Rfc5126.OtherCertID, Rfc5126.OtherCertID⟩,
   ⟨"rfc5126.py:172", Rfc5126.PolicyInformation, Rfc5126.PolicyInformation⟩,
   ⟨"rfc5126.py:195", Rfc5126.SigPolicyQualifierId, Rfc5126.SigPolicyQualifierId⟩,
   ⟨"rfc5126.py:203", Rfc5126.SigPolicyId, Rfc5126.SigPolicyId⟩,
   ⟨"rfc5126.py:204", Rfc5126.SigPolicyHash, Rfc5126.SigPolicyHash⟩,
   ⟨"rfc5126.py:206", Rfc5126.SigPolicyQualifierInfo, Rfc5126.SigPolicyQualifierInfo⟩,
   ⟨"rfc5126.py:217", Rfc5126.SignaturePolicyId, Rfc5126.SignaturePolicyId⟩,
   ⟨"rfc5126.py:218", Rfc5126.SignaturePolicyImplied, Rfc5126.SignaturePolicyImplied⟩,
   ⟨"rfc5126.py:238", Rfc5126.DisplayText, Rfc5126.DisplayText⟩,
   ⟨"rfc5126.py:245", Rfc5126.NoticeReference, Rfc5126.NoticeReference⟩,
   ⟨"rfc5126.py:246", Rfc5126.DisplayText, Rfc5126.DisplayText⟩,
   ⟨"rfc5126.py:250", Rfc5126.SigPolicyQualifierInfo, Rfc5126.SigPolicyQualifierInfo⟩,
   ⟨"rfc5126.py:252", Rfc5126.SPUserNotice, Rfc5126.SPUserNotice⟩,
   ⟨"rfc5126.py:262", Rfc5126.SigPolicyQualifierInfo, Rfc5126.SigPolicyQualifierInfo⟩,
   ⟨"rfc5126.py:264", Rfc5126.SPuri, Rfc5126.SPuri⟩,
   ⟨"rfc5126.py:279", Rfc5126.CommitmentTypeIdentifier, Rfc5126.CommitmentTypeIdentifier⟩,
   ⟨"rfc5126.py:288", Rfc5126.CommitmentTypeIdentifier, Rfc5126.CommitmentTypeIdentifier⟩,
   ⟨"rfc5126.py:290", Rfc5126.CommitmentTypeQualifier, Rfc5126.CommitmentTypeQualifier⟩,
   ⟨"rfc5126.py:314", Rfc5126.DirectoryString, Rfc5126.DirectoryString⟩,
   ⟨"rfc5126.py:321", Rfc5126.DirectoryString, Rfc5126.DirectoryString⟩,
   ⟨"rfc5126.py:324", Rfc5126.DirectoryString, Rfc5126.DirectoryString⟩,
   ⟨"rfc5126.py:327", Rfc5126.PostalAddress, Rfc5126.PostalAddress⟩,
   ⟨"rfc5126.py:356", Rfc5126.Attribute, Rfc5126.Attribute⟩,
   ⟨"rfc5126.py:366", Rfc5126.ClaimedAttributes, Rfc5126.ClaimedAttributes⟩,
   ⟨"rfc5126.py:369", Rfc5126.CertifiedAttributes, Rfc5126.CertifiedAttributes⟩,
   ⟨"rfc5126.py:380", Rfc5126.OtherCertID, Rfc5126.OtherCertID⟩,
   ⟨"rfc5126.py:390", Rfc5126.Name, Rfc5126.Name⟩,
   ⟨"rfc5126.py:398", Rfc5126.OtherHash, Rfc5126.OtherHash⟩,
   ⟨"rfc5126.py:399", Rfc5126.CrlIdentifier, Rfc5126.CrlIdentifier⟩,
   ⟨"rfc5126.py:406", Rfc5126.CrlValidatedID, Rfc5126.CrlValidatedID⟩,
   ⟨"rfc5126.py:412", Rfc5126.ResponderID, Rfc5126.ResponderID⟩,
   ⟨"rfc5126.py:419", Rfc5126.OcspIdentifier, Rfc5126.OcspIdentifier⟩,
   ⟨"rfc5126.py:420", Rfc5126.OtherHash, Rfc5126.OtherHash⟩,
   ⟨"rfc5126.py:427", Rfc5126.OcspResponsesID, Rfc5126.OcspResponsesID⟩,
   ⟨"rfc5126.py:437", Rfc5126.OtherRevRefType, Rfc5126.OtherRevRefType⟩,
   ⟨"rfc5126.py:446", Rfc5126.CRLListID, Rfc5126.CRLListID⟩,
   ⟨"rfc5126.py:449", Rfc5126.OcspListID, Rfc5126.OcspListID⟩,
   ⟨"rfc5126.py:452", Rfc5126.OtherRevRefs, Rfc5126.OtherRevRefs⟩,
   ⟨"rfc5126.py:458", Rfc5126.CrlOcspRef, Rfc5126.CrlOcspRef⟩,
   ⟨"rfc5126.py:467", Rfc5126.Certificate, Rfc5126.Certificate⟩,
   ⟨"rfc5126.py:481", Rfc5126.OtherRevValType, Rfc5126.OtherRevValType⟩,
   ⟨"rfc5126.py:490", Rfc5126.CertificateList, Rfc5126.CertificateList⟩,
   ⟨"rfc5126.py:493", Rfc5126.BasicOCSPResponse, Rfc5126.BasicOCSPResponse⟩,
   ⟨"rfc5126.py:496", Rfc5126.OtherRevVals, Rfc5126.OtherRevVals⟩,
   ⟨"rfc5126.py:534", Rfc5126.OtherCertID, Rfc5126.OtherCertID⟩,
   ⟨"rfc5126.py:543", Rfc5126.CrlOcspRef, Rfc5126.CrlOcspRef⟩,
   ⟨"rfc5126.py:549", Rfc5126.SPUserNotice, Rfc5126.SPUserNotice⟩,
   ⟨"rfc5126.py:550", Rfc5126.SPuri, Rfc5126.SPuri⟩,
   ⟨"rfc5126.py:559", Rfc5126.OtherSigningCertificate, Rfc5126.OtherSigningCertificate⟩,
   ⟨"rfc5126.py:560", Rfc5126.SignaturePolicy, Rfc5126.SignaturePolicy⟩,
   ⟨"rfc5126.py:561", Rfc5126.CommitmentTypeIndication, Rfc5126.CommitmentTypeIndication⟩,
   ⟨"rfc5126.py:562", Rfc5126.SignerLocation, Rfc5126.SignerLocation⟩,
   ⟨"rfc5126.py:563", Rfc5126.SignatureTimeStampToken, Rfc5126.SignatureTimeStampToken⟩,
   ⟨"rfc5126.py:564", Rfc5126.ContentTimestamp, Rfc5126.ContentTimestamp⟩,
   ⟨"rfc5126.py:565", Rfc5126.SignerAttribute, Rfc5126.SignerAttribute⟩,
   ⟨"rfc5126.py:566", Rfc5126.CompleteCertificateRefs, Rfc5126.CompleteCertificateRefs⟩,
   ⟨"rfc5126.py:567", Rfc5126.CompleteRevocationRefs, Rfc5126.CompleteRevocationRefs⟩,
   ⟨"rfc5126.py:568", Rfc5126.CertificateValues, Rfc5126.CertificateValues⟩,
   ⟨"rfc5126.py:569", Rfc5126.RevocationValues, Rfc5126.RevocationValues⟩,
   ⟨"rfc5126.py:570", Rfc5126.ESCTimeStampToken, Rfc5126.ESCTimeStampToken⟩,
   ⟨"rfc5126.py:571", Rfc5126.TimestampedCertsCRLs, Rfc5126.TimestampedCertsCRLs⟩,
   ⟨"rfc5126.py:572", Rfc5126.ArchiveTimeStampToken, Rfc5126.ArchiveTimeStampToken⟩,
   ⟨"rfc5126.py:573", Rfc5126.AttributeCertificateRefs, Rfc5126.AttributeCertificateRefs⟩,
   ⟨"rfc5126.py:574", Rfc5126.AttributeRevocationRefs, Rfc5126.AttributeRevocationRefs⟩]

/-- Functions rfc5126.py defines. -/
def builders : List (String × (List Py.OidArg → Py.Obj)) :=
  []

def asModule : Py.Module :=
  { id := (Py.mod 69 "rfc5126"), imports := imports, effects := effects, classes := classes, objects := objects, protos := protos, snapshots := snapshots, builders := builders }

end Rfc5126
end Verif
