import Verif.Spec.Grade
import Verif.Gen.Rfc5126
import Verif.Std.Rfc2634
import Verif.Std.Rfc3161
import Verif.Std.Rfc5035
import Verif.Std.Rfc5280
import Verif.Std.Rfc5652
import Verif.Std.Rfc5755
import Verif.Std.Rfc6960

/-! The ASN.1 of tools/std/rfc5126.asn1 (generated by tools/stdgen.py). -/

namespace Verif
namespace Std
namespace Rfc5126

open Asn1 Spec.X680

/-- `OtherHashValue ::=` -/
def OtherHashValue : Ty :=
  OCTET_STRING

/-- `OtherHashAlgAndValue ::=` -/
def OtherHashAlgAndValue : Ty :=
  SEQUENCE [
    mandatory "hashAlgorithm" Std.Rfc5280.AlgorithmIdentifier,
    mandatory "hashValue" OtherHashValue]

/-- `OtherHash ::=` -/
def OtherHash : Ty :=
  CHOICE [
    mandatory "sha1Hash" OtherHashValue,
    mandatory "otherHash" OtherHashAlgAndValue]

/-- `OtherCertID ::=` -/
def OtherCertID : Ty :=
  SEQUENCE [
    mandatory "otherCertHash" OtherHash,
    optional "issuerSerial" Std.Rfc2634.IssuerSerial]

/-- `OtherSigningCertificate ::=` -/
def OtherSigningCertificate : Ty :=
  SEQUENCE [
    mandatory "certs" (SEQUENCE_OF OtherCertID),
    optional "policies" (SEQUENCE_OF Std.Rfc5280.PolicyInformation)]

/-- `SigPolicyId ::=` -/
def SigPolicyId : Ty :=
  OBJECT_IDENTIFIER

/-- `SigPolicyHash ::=` -/
def SigPolicyHash : Ty :=
  OtherHashAlgAndValue

/-- `SigPolicyQualifierId ::=` -/
def SigPolicyQualifierId : Ty :=
  OBJECT_IDENTIFIER

/-- `SigPolicyQualifierInfo ::=` -/
def SigPolicyQualifierInfo : Ty :=
  SEQUENCE [
    mandatory "sigPolicyQualifierId" SigPolicyQualifierId,
    mandatory "sigQualifier" ANY]

/-- `SignaturePolicyId ::=` -/
def SignaturePolicyId : Ty :=
  SEQUENCE [
    mandatory "sigPolicyId" SigPolicyId,
    mandatory "sigPolicyHash" SigPolicyHash,
    optional "sigPolicyQualifiers" (constrained (SIZE_MAX 1) (SEQUENCE_OF SigPolicyQualifierInfo))]

/-- `SignaturePolicyImplied ::=` -/
def SignaturePolicyImplied : Ty :=
  NULL

/-- `SignaturePolicy ::=` -/
def SignaturePolicy : Ty :=
  CHOICE [
    mandatory "signaturePolicyId" SignaturePolicyId,
    mandatory "signaturePolicyImplied" SignaturePolicyImplied]

/-- `SPuri ::=` -/
def SPuri : Ty :=
  IA5String

/-- `DisplayText ::=` -/
def DisplayText : Ty :=
  CHOICE [
    mandatory "visibleString" (constrained (SIZE 1 200) VisibleString),
    mandatory "bmpString" (constrained (SIZE 1 200) BMPString),
    mandatory "utf8String" (constrained (SIZE 1 200) UTF8String)]

/-- `NoticeReference ::=` -/
def NoticeReference : Ty :=
  SEQUENCE [
    mandatory "organization" DisplayText,
    mandatory "noticeNumbers" (SEQUENCE_OF INTEGER)]

/-- `SPUserNotice ::=` -/
def SPUserNotice : Ty :=
  SEQUENCE [
    optional "noticeRef" NoticeReference,
    optional "explicitText" DisplayText]

/-- `CommitmentTypeIdentifier ::=` -/
def CommitmentTypeIdentifier : Ty :=
  OBJECT_IDENTIFIER

/-- `CommitmentTypeQualifier ::=` -/
def CommitmentTypeQualifier : Ty :=
  SEQUENCE [
    mandatory "commitmentTypeIdentifier" CommitmentTypeIdentifier,
    mandatory "qualifier" ANY]

/-- `CommitmentTypeIndication ::=` -/
def CommitmentTypeIndication : Ty :=
  SEQUENCE [
    mandatory "commitmentTypeId" CommitmentTypeIdentifier,
    optional "commitmentTypeQualifier" (constrained (SIZE_MAX 1) (SEQUENCE_OF CommitmentTypeQualifier))]

/-- `PostalAddress ::=` -/
def PostalAddress : Ty :=
  constrained (SIZE 1 6) (SEQUENCE_OF Std.Rfc5280.DirectoryString)

/-- `SignerLocation ::=` -/
def SignerLocation : Ty :=
  SEQUENCE [
    optional "countryName" (explicit .context 0 Std.Rfc5280.DirectoryString),
    optional "localityName" (explicit .context 1 Std.Rfc5280.DirectoryString),
    optional "postalAdddress" (explicit .context 2 PostalAddress)]

/-- `ClaimedAttributes ::=` -/
def ClaimedAttributes : Ty :=
  SEQUENCE_OF Std.Rfc5280.Attribute

/-- `CertifiedAttributes ::=` -/
def CertifiedAttributes : Ty :=
  Std.Rfc5755.AttributeCertificate

/-- `SignerAttribute ::=` -/
def SignerAttribute : Ty :=
  SEQUENCE_OF (CHOICE [
    mandatory "claimedAttributes" (explicit .context 0 ClaimedAttributes),
    mandatory "certifiedAttributes" (explicit .context 1 CertifiedAttributes)])

/-- `ContentTimestamp ::=` -/
def ContentTimestamp : Ty :=
  Std.Rfc3161.TimeStampToken

/-- `SignatureTimeStampToken ::=` -/
def SignatureTimeStampToken : Ty :=
  Std.Rfc3161.TimeStampToken

/-- `CompleteCertificateRefs ::=` -/
def CompleteCertificateRefs : Ty :=
  SEQUENCE_OF OtherCertID

/-- `CrlIdentifier ::=` -/
def CrlIdentifier : Ty :=
  SEQUENCE [
    mandatory "crlissuer" Std.Rfc5280.Name,
    mandatory "crlIssuedTime" UTCTime,
    optional "crlNumber" INTEGER]

/-- `CrlValidatedID ::=` -/
def CrlValidatedID : Ty :=
  SEQUENCE [
    mandatory "crlHash" OtherHash,
    optional "crlIdentifier" CrlIdentifier]

/-- `CRLListID ::=` -/
def CRLListID : Ty :=
  SEQUENCE [
    mandatory "crls" (SEQUENCE_OF CrlValidatedID)]

/-- `OcspIdentifier ::=` -/
def OcspIdentifier : Ty :=
  SEQUENCE [
    mandatory "ocspResponderID" Std.Rfc6960.ResponderID,
    mandatory "producedAt" GeneralizedTime]

/-- `OcspResponsesID ::=` -/
def OcspResponsesID : Ty :=
  SEQUENCE [
    mandatory "ocspIdentifier" OcspIdentifier,
    optional "ocspRepHash" OtherHash]

/-- `OcspListID ::=` -/
def OcspListID : Ty :=
  SEQUENCE [
    mandatory "ocspResponses" (SEQUENCE_OF OcspResponsesID)]

/-- `OtherRevRefType ::=` -/
def OtherRevRefType : Ty :=
  OBJECT_IDENTIFIER

/-- `OtherRevRefs ::=` -/
def OtherRevRefs : Ty :=
  SEQUENCE [
    mandatory "otherRevRefType" OtherRevRefType,
    mandatory "otherRevRefs" ANY]

/-- `CrlOcspRef ::=` -/
def CrlOcspRef : Ty :=
  SEQUENCE [
    optional "crlids" (explicit .context 0 CRLListID),
    optional "ocspids" (explicit .context 1 OcspListID),
    optional "otherRev" (explicit .context 2 OtherRevRefs)]

/-- `CompleteRevocationRefs ::=` -/
def CompleteRevocationRefs : Ty :=
  SEQUENCE_OF CrlOcspRef

/-- `CertificateValues ::=` -/
def CertificateValues : Ty :=
  SEQUENCE_OF Std.Rfc5280.Certificate

/-- `OtherRevValType ::=` -/
def OtherRevValType : Ty :=
  OBJECT_IDENTIFIER

/-- `OtherRevVals ::=` -/
def OtherRevVals : Ty :=
  SEQUENCE [
    mandatory "otherRevValType" OtherRevValType,
    mandatory "otherRevVals" ANY]

/-- `RevocationValues ::=` -/
def RevocationValues : Ty :=
  SEQUENCE [
    optional "crlVals" (explicit .context 0 (SEQUENCE_OF Std.Rfc5280.CertificateList)),
    optional "ocspVals" (explicit .context 1 (SEQUENCE_OF Std.Rfc6960.BasicOCSPResponse)),
    optional "otherRevVals" (explicit .context 2 OtherRevVals)]

/-- `ESCTimeStampToken ::=` -/
def ESCTimeStampToken : Ty :=
  Std.Rfc3161.TimeStampToken

/-- `TimestampedCertsCRLs ::=` -/
def TimestampedCertsCRLs : Ty :=
  Std.Rfc3161.TimeStampToken

/-- `ArchiveTimeStampToken ::=` -/
def ArchiveTimeStampToken : Ty :=
  Std.Rfc3161.TimeStampToken

/-- `AttributeCertificateRefs ::=` -/
def AttributeCertificateRefs : Ty :=
  SEQUENCE_OF OtherCertID

/-- `AttributeRevocationRefs ::=` -/
def AttributeRevocationRefs : Ty :=
  SEQUENCE_OF CrlOcspRef

/-- Classes of rfc5126.py and the types of the standard they implement. -/
def entries : List Entry :=
  [⟨"rfc5126.ContentInfo", Verif.Rfc5126.ContentInfo, Std.Rfc5652.ContentInfo, .same, false⟩,
   ⟨"rfc5126.ContentType", Verif.Rfc5126.ContentType, Std.Rfc5652.ContentType, .same, false⟩,
   ⟨"rfc5126.SignedData", Verif.Rfc5126.SignedData, Std.Rfc5652.SignedData, .same, false⟩,
   ⟨"rfc5126.EncapsulatedContentInfo", Verif.Rfc5126.EncapsulatedContentInfo, Std.Rfc5652.EncapsulatedContentInfo, .same, false⟩,
   ⟨"rfc5126.SignerInfo", Verif.Rfc5126.SignerInfo, Std.Rfc5652.SignerInfo, .same, false⟩,
   ⟨"rfc5126.MessageDigest", Verif.Rfc5126.MessageDigest, Std.Rfc5652.MessageDigest, .same, false⟩,
   ⟨"rfc5126.SigningTime", Verif.Rfc5126.SigningTime, Std.Rfc5652.SigningTime, .same, false⟩,
   ⟨"rfc5126.Countersignature", Verif.Rfc5126.Countersignature, Std.Rfc5652.Countersignature, .same, false⟩,
   ⟨"rfc5126.SigningCertificate", Verif.Rfc5126.SigningCertificate, Std.Rfc2634.SigningCertificate, .relaxed, false⟩,
   ⟨"rfc5126.IssuerSerial", Verif.Rfc5126.IssuerSerial, Std.Rfc2634.IssuerSerial, .same, false⟩,
   ⟨"rfc5126.ContentReference", Verif.Rfc5126.ContentReference, Std.Rfc2634.ContentReference, .same, false⟩,
   ⟨"rfc5126.ContentIdentifier", Verif.Rfc5126.ContentIdentifier, Std.Rfc2634.ContentIdentifier, .same, false⟩,
   ⟨"rfc5126.Certificate", Verif.Rfc5126.Certificate, Std.Rfc5280.Certificate, .same, false⟩,
   ⟨"rfc5126.AlgorithmIdentifier", Verif.Rfc5126.AlgorithmIdentifier, Std.Rfc5280.AlgorithmIdentifier, .same, false⟩,
   ⟨"rfc5126.CertificateList", Verif.Rfc5126.CertificateList, Std.Rfc5280.CertificateList, .same, false⟩,
   ⟨"rfc5126.Name", Verif.Rfc5126.Name, Std.Rfc5280.Name, .same, false⟩,
   ⟨"rfc5126.Attribute", Verif.Rfc5126.Attribute, Std.Rfc5280.Attribute, .same, false⟩,
   ⟨"rfc5126.GeneralNames", Verif.Rfc5126.GeneralNames, Std.Rfc5280.GeneralNames, .same, false⟩,
   ⟨"rfc5126.GeneralName", Verif.Rfc5126.GeneralName, Std.Rfc5280.GeneralName, .same, false⟩,
   ⟨"rfc5126.PolicyInformation", Verif.Rfc5126.PolicyInformation, Std.Rfc5280.PolicyInformation, .relaxed, false⟩,
   ⟨"rfc5126.DirectoryString", Verif.Rfc5126.DirectoryString, Std.Rfc5280.DirectoryString, .same, false⟩,
   ⟨"rfc5126.AttributeCertificate", Verif.Rfc5126.AttributeCertificate, Std.Rfc5755.AttributeCertificate, .same, false⟩,
   ⟨"rfc5126.BasicOCSPResponse", Verif.Rfc5126.BasicOCSPResponse, Std.Rfc6960.BasicOCSPResponse, .same, false⟩,
   ⟨"rfc5126.ResponderID", Verif.Rfc5126.ResponderID, Std.Rfc6960.ResponderID, .same, false⟩,
   ⟨"rfc5126.TimeStampToken", Verif.Rfc5126.TimeStampToken, Std.Rfc3161.TimeStampToken, .same, false⟩,
   ⟨"rfc5126.OtherHashValue", Verif.Rfc5126.OtherHashValue, OtherHashValue, .same, false⟩,
   ⟨"rfc5126.OtherHashAlgAndValue", Verif.Rfc5126.OtherHashAlgAndValue, OtherHashAlgAndValue, .same, false⟩,
   ⟨"rfc5126.OtherHash", Verif.Rfc5126.OtherHash, OtherHash, .same, false⟩,
   ⟨"rfc5126.OtherCertID", Verif.Rfc5126.OtherCertID, OtherCertID, .same, false⟩,
   ⟨"rfc5126.OtherSigningCertificate", Verif.Rfc5126.OtherSigningCertificate, OtherSigningCertificate, .relaxed, false⟩,
   ⟨"rfc5126.SigPolicyId", Verif.Rfc5126.SigPolicyId, SigPolicyId, .same, false⟩,
   ⟨"rfc5126.SigPolicyHash", Verif.Rfc5126.SigPolicyHash, SigPolicyHash, .same, false⟩,
   ⟨"rfc5126.SigPolicyQualifierId", Verif.Rfc5126.SigPolicyQualifierId, SigPolicyQualifierId, .same, false⟩,
   ⟨"rfc5126.SigPolicyQualifierInfo", Verif.Rfc5126.SigPolicyQualifierInfo, SigPolicyQualifierInfo, .same, false⟩,
   ⟨"rfc5126.SignaturePolicyId", Verif.Rfc5126.SignaturePolicyId, SignaturePolicyId, .same, false⟩,
   ⟨"rfc5126.SignaturePolicyImplied", Verif.Rfc5126.SignaturePolicyImplied, SignaturePolicyImplied, .same, false⟩,
   ⟨"rfc5126.SignaturePolicy", Verif.Rfc5126.SignaturePolicy, SignaturePolicy, .same, false⟩,
   ⟨"rfc5126.DisplayText", Verif.Rfc5126.DisplayText, DisplayText, .same, false⟩,
   ⟨"rfc5126.NoticeReference", Verif.Rfc5126.NoticeReference, NoticeReference, .same, false⟩,
   ⟨"rfc5126.SPUserNotice", Verif.Rfc5126.SPUserNotice, SPUserNotice, .same, false⟩,
   ⟨"rfc5126.SPuri", Verif.Rfc5126.SPuri, SPuri, .same, false⟩,
   ⟨"rfc5126.CommitmentTypeIdentifier", Verif.Rfc5126.CommitmentTypeIdentifier, CommitmentTypeIdentifier, .same, false⟩,
   ⟨"rfc5126.CommitmentTypeQualifier", Verif.Rfc5126.CommitmentTypeQualifier, CommitmentTypeQualifier, .same, false⟩,
   ⟨"rfc5126.CommitmentTypeIndication", Verif.Rfc5126.CommitmentTypeIndication, CommitmentTypeIndication, .same, false⟩,
   ⟨"rfc5126.PostalAddress", Verif.Rfc5126.PostalAddress, PostalAddress, .same, false⟩,
   ⟨"rfc5126.SignerLocation", Verif.Rfc5126.SignerLocation, SignerLocation, .same, false⟩,
   ⟨"rfc5126.SignatureTimeStampToken", Verif.Rfc5126.SignatureTimeStampToken, SignatureTimeStampToken, .same, false⟩,
   ⟨"rfc5126.ContentTimestamp", Verif.Rfc5126.ContentTimestamp, ContentTimestamp, .same, false⟩,
   ⟨"rfc5126.ClaimedAttributes", Verif.Rfc5126.ClaimedAttributes, ClaimedAttributes, .same, false⟩,
   ⟨"rfc5126.CertifiedAttributes", Verif.Rfc5126.CertifiedAttributes, CertifiedAttributes, .same, false⟩,
   ⟨"rfc5126.SignerAttribute", Verif.Rfc5126.SignerAttribute, SignerAttribute, .same, false⟩,
   ⟨"rfc5126.CompleteCertificateRefs", Verif.Rfc5126.CompleteCertificateRefs, CompleteCertificateRefs, .same, false⟩,
   ⟨"rfc5126.CrlIdentifier", Verif.Rfc5126.CrlIdentifier, CrlIdentifier, .same, false⟩,
   ⟨"rfc5126.CrlValidatedID", Verif.Rfc5126.CrlValidatedID, CrlValidatedID, .same, false⟩,
   ⟨"rfc5126.CRLListID", Verif.Rfc5126.CRLListID, CRLListID, .same, false⟩,
   ⟨"rfc5126.OcspIdentifier", Verif.Rfc5126.OcspIdentifier, OcspIdentifier, .same, false⟩,
   ⟨"rfc5126.OcspResponsesID", Verif.Rfc5126.OcspResponsesID, OcspResponsesID, .same, false⟩,
   ⟨"rfc5126.OcspListID", Verif.Rfc5126.OcspListID, OcspListID, .same, false⟩,
   ⟨"rfc5126.OtherRevRefType", Verif.Rfc5126.OtherRevRefType, OtherRevRefType, .same, false⟩,
   ⟨"rfc5126.OtherRevRefs", Verif.Rfc5126.OtherRevRefs, OtherRevRefs, .same, false⟩,
   ⟨"rfc5126.CrlOcspRef", Verif.Rfc5126.CrlOcspRef, CrlOcspRef, .same, false⟩,
   ⟨"rfc5126.CompleteRevocationRefs", Verif.Rfc5126.CompleteRevocationRefs, CompleteRevocationRefs, .same, false⟩,
   ⟨"rfc5126.CertificateValues", Verif.Rfc5126.CertificateValues, CertificateValues, .same, false⟩,
   ⟨"rfc5126.OtherRevValType", Verif.Rfc5126.OtherRevValType, OtherRevValType, .same, false⟩,
   ⟨"rfc5126.OtherRevVals", Verif.Rfc5126.OtherRevVals, OtherRevVals, .same, false⟩,
   ⟨"rfc5126.RevocationValues", Verif.Rfc5126.RevocationValues, RevocationValues, .same, false⟩,
   ⟨"rfc5126.ESCTimeStampToken", Verif.Rfc5126.ESCTimeStampToken, ESCTimeStampToken, .same, false⟩,
   ⟨"rfc5126.TimestampedCertsCRLs", Verif.Rfc5126.TimestampedCertsCRLs, TimestampedCertsCRLs, .same, false⟩,
   ⟨"rfc5126.ArchiveTimeStampToken", Verif.Rfc5126.ArchiveTimeStampToken, ArchiveTimeStampToken, .same, false⟩,
   ⟨"rfc5126.AttributeCertificateRefs", Verif.Rfc5126.AttributeCertificateRefs, AttributeCertificateRefs, .same, false⟩,
   ⟨"rfc5126.AttributeRevocationRefs", Verif.Rfc5126.AttributeRevocationRefs, AttributeRevocationRefs, .same, false⟩]

/-- Classes of rfc5126.py the transcription of the standard has no type for. -/
def beyond : List String :=
  []

/-- Constants of rfc5126.py and the values the standard gives them. -/
def constants : List Constant :=
  [⟨"rfc5126.id_data", Verif.Rfc5126.id_data, OBJECT_IDENTIFIER, .oid [1, 2, 840, 113549, 1, 7, 1], true⟩,
   ⟨"rfc5126.id_signedData", Verif.Rfc5126.id_signedData, OBJECT_IDENTIFIER, .oid [1, 2, 840, 113549, 1, 7, 2], true⟩,
   ⟨"rfc5126.id_messageDigest", Verif.Rfc5126.id_messageDigest, OBJECT_IDENTIFIER, .oid [1, 2, 840, 113549, 1, 9, 4], true⟩,
   ⟨"rfc5126.id_signingTime", Verif.Rfc5126.id_signingTime, OBJECT_IDENTIFIER, .oid [1, 2, 840, 113549, 1, 9, 5], true⟩,
   ⟨"rfc5126.id_countersignature", Verif.Rfc5126.id_countersignature, OBJECT_IDENTIFIER, .oid [1, 2, 840, 113549, 1, 9, 6], true⟩,
   ⟨"rfc5126.id_aa_contentReference", Verif.Rfc5126.id_aa_contentReference, OBJECT_IDENTIFIER, .oid [1, 2, 840, 113549, 1, 9, 16, 2, 10], true⟩,
   ⟨"rfc5126.id_aa_contentIdentifier", Verif.Rfc5126.id_aa_contentIdentifier, OBJECT_IDENTIFIER, .oid [1, 2, 840, 113549, 1, 9, 16, 2, 7], true⟩,
   ⟨"rfc5126.id_aa_signingCertificate", Verif.Rfc5126.id_aa_signingCertificate, OBJECT_IDENTIFIER, .oid [1, 2, 840, 113549, 1, 9, 16, 2, 12], true⟩,
   ⟨"rfc5126.id_aa_signingCertificateV2", Verif.Rfc5126.id_aa_signingCertificateV2, OBJECT_IDENTIFIER, .oid [1, 2, 840, 113549, 1, 9, 16, 2, 47], true⟩,
   ⟨"rfc5126.id_etsi_es_IDUP_Mechanism_v1", Verif.Rfc5126.id_etsi_es_IDUP_Mechanism_v1, OBJECT_IDENTIFIER, .oid [0, 4, 0, 1733, 1, 4, 1], true⟩,
   ⟨"rfc5126.id_aa_ets_otherSigCert", Verif.Rfc5126.id_aa_ets_otherSigCert, OBJECT_IDENTIFIER, .oid [1, 2, 840, 113549, 1, 9, 16, 2, 19], true⟩,
   ⟨"rfc5126.id_aa_ets_sigPolicyId", Verif.Rfc5126.id_aa_ets_sigPolicyId, OBJECT_IDENTIFIER, .oid [1, 2, 840, 113549, 1, 9, 16, 2, 15], true⟩,
   ⟨"rfc5126.id_spq_ets_unotice", Verif.Rfc5126.id_spq_ets_unotice, OBJECT_IDENTIFIER, .oid [1, 2, 840, 113549, 1, 9, 16, 5, 2], true⟩,
   ⟨"rfc5126.id_spq_ets_uri", Verif.Rfc5126.id_spq_ets_uri, OBJECT_IDENTIFIER, .oid [1, 2, 840, 113549, 1, 9, 16, 5, 1], true⟩,
   ⟨"rfc5126.id_aa_ets_commitmentType", Verif.Rfc5126.id_aa_ets_commitmentType, OBJECT_IDENTIFIER, .oid [1, 2, 840, 113549, 1, 9, 16, 2, 16], true⟩,
   ⟨"rfc5126.id_cti_ets_proofOfOrigin", Verif.Rfc5126.id_cti_ets_proofOfOrigin, OBJECT_IDENTIFIER, .oid [1, 2, 840, 113549, 1, 9, 16, 6, 1], true⟩,
   ⟨"rfc5126.id_cti_ets_proofOfReceipt", Verif.Rfc5126.id_cti_ets_proofOfReceipt, OBJECT_IDENTIFIER, .oid [1, 2, 840, 113549, 1, 9, 16, 6, 2], true⟩,
   ⟨"rfc5126.id_cti_ets_proofOfDelivery", Verif.Rfc5126.id_cti_ets_proofOfDelivery, OBJECT_IDENTIFIER, .oid [1, 2, 840, 113549, 1, 9, 16, 6, 3], true⟩,
   ⟨"rfc5126.id_cti_ets_proofOfSender", Verif.Rfc5126.id_cti_ets_proofOfSender, OBJECT_IDENTIFIER, .oid [1, 2, 840, 113549, 1, 9, 16, 6, 4], true⟩,
   ⟨"rfc5126.id_cti_ets_proofOfApproval", Verif.Rfc5126.id_cti_ets_proofOfApproval, OBJECT_IDENTIFIER, .oid [1, 2, 840, 113549, 1, 9, 16, 6, 5], true⟩,
   ⟨"rfc5126.id_cti_ets_proofOfCreation", Verif.Rfc5126.id_cti_ets_proofOfCreation, OBJECT_IDENTIFIER, .oid [1, 2, 840, 113549, 1, 9, 16, 6, 6], true⟩,
   ⟨"rfc5126.id_aa_ets_signerLocation", Verif.Rfc5126.id_aa_ets_signerLocation, OBJECT_IDENTIFIER, .oid [1, 2, 840, 113549, 1, 9, 16, 2, 17], true⟩,
   ⟨"rfc5126.id_aa_signatureTimeStampToken", Verif.Rfc5126.id_aa_signatureTimeStampToken, OBJECT_IDENTIFIER, .oid [1, 2, 840, 113549, 1, 9, 16, 2, 14], true⟩,
   ⟨"rfc5126.id_aa_ets_contentTimestamp", Verif.Rfc5126.id_aa_ets_contentTimestamp, OBJECT_IDENTIFIER, .oid [1, 2, 840, 113549, 1, 9, 16, 2, 20], true⟩,
   ⟨"rfc5126.id_aa_ets_signerAttr", Verif.Rfc5126.id_aa_ets_signerAttr, OBJECT_IDENTIFIER, .oid [1, 2, 840, 113549, 1, 9, 16, 2, 18], true⟩,
   ⟨"rfc5126.id_aa_ets_certificateRefs", Verif.Rfc5126.id_aa_ets_certificateRefs, OBJECT_IDENTIFIER, .oid [1, 2, 840, 113549, 1, 9, 16, 2, 21], true⟩,
   ⟨"rfc5126.id_aa_ets_revocationRefs", Verif.Rfc5126.id_aa_ets_revocationRefs, OBJECT_IDENTIFIER, .oid [1, 2, 840, 113549, 1, 9, 16, 2, 22], true⟩,
   ⟨"rfc5126.id_aa_ets_certValues", Verif.Rfc5126.id_aa_ets_certValues, OBJECT_IDENTIFIER, .oid [1, 2, 840, 113549, 1, 9, 16, 2, 23], true⟩,
   ⟨"rfc5126.id_aa_ets_revocationValues", Verif.Rfc5126.id_aa_ets_revocationValues, OBJECT_IDENTIFIER, .oid [1, 2, 840, 113549, 1, 9, 16, 2, 24], true⟩,
   ⟨"rfc5126.id_aa_ets_escTimeStamp", Verif.Rfc5126.id_aa_ets_escTimeStamp, OBJECT_IDENTIFIER, .oid [1, 2, 840, 113549, 1, 9, 16, 2, 25], true⟩,
   ⟨"rfc5126.id_aa_ets_certCRLTimestamp", Verif.Rfc5126.id_aa_ets_certCRLTimestamp, OBJECT_IDENTIFIER, .oid [1, 2, 840, 113549, 1, 9, 16, 2, 26], true⟩,
   ⟨"rfc5126.id_aa_ets_archiveTimestampV2", Verif.Rfc5126.id_aa_ets_archiveTimestampV2, OBJECT_IDENTIFIER, .oid [1, 2, 840, 113549, 1, 9, 16, 2, 48], true⟩,
   ⟨"rfc5126.id_aa_ets_attrCertificateRefs", Verif.Rfc5126.id_aa_ets_attrCertificateRefs, OBJECT_IDENTIFIER, .oid [1, 2, 840, 113549, 1, 9, 16, 2, 44], true⟩,
   ⟨"rfc5126.id_aa_ets_attrRevocationRefs", Verif.Rfc5126.id_aa_ets_attrRevocationRefs, OBJECT_IDENTIFIER, .oid [1, 2, 840, 113549, 1, 9, 16, 2, 45], true⟩]

/-- Constants of rfc5126.py the transcription of the standard has no value for. -/
def others : List String :=
  ["rfc5126.id_contentType",
   "rfc5126.noticeToUser",
   "rfc5126.pointerToSigPolSpec"]

def standard : Standard := ⟨Verif.Rfc5126.asModule, entries, beyond, constants, others⟩

end Rfc5126
end Std
end Verif
