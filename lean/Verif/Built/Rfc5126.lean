import Verif.Spec.Built
import Verif.Std.Rfc5126
import Verif.Built.Rfc2634
import Verif.Built.Rfc5280
import Verif.Built.Rfc5755
import Verif.Built.Rfc6960
import Verif.Std.Rfc2634
import Verif.Std.Rfc3161
import Verif.Std.Rfc5280
import Verif.Std.Rfc5652
import Verif.Std.Rfc5755
import Verif.Std.Rfc6960

/-! What rfc5126.py implements, where that is not the standard (generated by tools/builtgen.py). -/

namespace Verif
namespace Built
namespace Rfc5126

open Asn1 Verif.Std Spec.X680 Spec.Built

/-- `OtherSigningCertificate ::=` -/
def OtherSigningCertificate : Ty :=
  SEQUENCE [
    mandatory "certs" (SEQUENCE_OF Std.Rfc5126.OtherCertID),
    optional "policies" (SEQUENCE_OF Built.Rfc5280.PolicyInformation)]

def description : Description :=
  ⟨Verif.Rfc5126.asModule,
   [⟨"rfc5126.ContentInfo", Verif.Rfc5126.ContentInfo, Std.Rfc5652.ContentInfo⟩,
    ⟨"rfc5126.ContentType", Verif.Rfc5126.ContentType, Std.Rfc5652.ContentType⟩,
    ⟨"rfc5126.SignedData", Verif.Rfc5126.SignedData, Std.Rfc5652.SignedData⟩,
    ⟨"rfc5126.EncapsulatedContentInfo", Verif.Rfc5126.EncapsulatedContentInfo, Std.Rfc5652.EncapsulatedContentInfo⟩,
    ⟨"rfc5126.SignerInfo", Verif.Rfc5126.SignerInfo, Std.Rfc5652.SignerInfo⟩,
    ⟨"rfc5126.MessageDigest", Verif.Rfc5126.MessageDigest, Std.Rfc5652.MessageDigest⟩,
    ⟨"rfc5126.SigningTime", Verif.Rfc5126.SigningTime, Std.Rfc5652.SigningTime⟩,
    ⟨"rfc5126.Countersignature", Verif.Rfc5126.Countersignature, Std.Rfc5652.Countersignature⟩,
    ⟨"rfc5126.SigningCertificate", Verif.Rfc5126.SigningCertificate, Built.Rfc2634.SigningCertificate⟩,
    ⟨"rfc5126.IssuerSerial", Verif.Rfc5126.IssuerSerial, Std.Rfc2634.IssuerSerial⟩,
    ⟨"rfc5126.ContentReference", Verif.Rfc5126.ContentReference, Std.Rfc2634.ContentReference⟩,
    ⟨"rfc5126.ContentIdentifier", Verif.Rfc5126.ContentIdentifier, Std.Rfc2634.ContentIdentifier⟩,
    ⟨"rfc5126.Certificate", Verif.Rfc5126.Certificate, Std.Rfc5280.Certificate⟩,
    ⟨"rfc5126.AlgorithmIdentifier", Verif.Rfc5126.AlgorithmIdentifier, Std.Rfc5280.AlgorithmIdentifier⟩,
    ⟨"rfc5126.CertificateList", Verif.Rfc5126.CertificateList, Std.Rfc5280.CertificateList⟩,
    ⟨"rfc5126.Name", Verif.Rfc5126.Name, Std.Rfc5280.Name⟩,
    ⟨"rfc5126.Attribute", Verif.Rfc5126.Attribute, Std.Rfc5280.Attribute⟩,
    ⟨"rfc5126.GeneralNames", Verif.Rfc5126.GeneralNames, Std.Rfc5280.GeneralNames⟩,
    ⟨"rfc5126.GeneralName", Verif.Rfc5126.GeneralName, Std.Rfc5280.GeneralName⟩,
    ⟨"rfc5126.PolicyInformation", Verif.Rfc5126.PolicyInformation, Built.Rfc5280.PolicyInformation⟩,
    ⟨"rfc5126.DirectoryString", Verif.Rfc5126.DirectoryString, Std.Rfc5280.DirectoryString⟩,
    ⟨"rfc5126.AttributeCertificate", Verif.Rfc5126.AttributeCertificate, Std.Rfc5755.AttributeCertificate⟩,
    ⟨"rfc5126.BasicOCSPResponse", Verif.Rfc5126.BasicOCSPResponse, Std.Rfc6960.BasicOCSPResponse⟩,
    ⟨"rfc5126.ResponderID", Verif.Rfc5126.ResponderID, Std.Rfc6960.ResponderID⟩,
    ⟨"rfc5126.TimeStampToken", Verif.Rfc5126.TimeStampToken, Std.Rfc3161.TimeStampToken⟩,
    ⟨"rfc5126.OtherHashValue", Verif.Rfc5126.OtherHashValue, Std.Rfc5126.OtherHashValue⟩,
    ⟨"rfc5126.OtherHashAlgAndValue", Verif.Rfc5126.OtherHashAlgAndValue, Std.Rfc5126.OtherHashAlgAndValue⟩,
    ⟨"rfc5126.OtherHash", Verif.Rfc5126.OtherHash, Std.Rfc5126.OtherHash⟩,
    ⟨"rfc5126.OtherCertID", Verif.Rfc5126.OtherCertID, Std.Rfc5126.OtherCertID⟩,
    ⟨"rfc5126.OtherSigningCertificate", Verif.Rfc5126.OtherSigningCertificate, Built.Rfc5126.OtherSigningCertificate⟩,
    ⟨"rfc5126.SigPolicyId", Verif.Rfc5126.SigPolicyId, Std.Rfc5126.SigPolicyId⟩,
    ⟨"rfc5126.SigPolicyHash", Verif.Rfc5126.SigPolicyHash, Std.Rfc5126.SigPolicyHash⟩,
    ⟨"rfc5126.SigPolicyQualifierId", Verif.Rfc5126.SigPolicyQualifierId, Std.Rfc5126.SigPolicyQualifierId⟩,
    ⟨"rfc5126.SigPolicyQualifierInfo", Verif.Rfc5126.SigPolicyQualifierInfo, Std.Rfc5126.SigPolicyQualifierInfo⟩,
    ⟨"rfc5126.SignaturePolicyId", Verif.Rfc5126.SignaturePolicyId, Std.Rfc5126.SignaturePolicyId⟩,
    ⟨"rfc5126.SignaturePolicyImplied", Verif.Rfc5126.SignaturePolicyImplied, Std.Rfc5126.SignaturePolicyImplied⟩,
    ⟨"rfc5126.SignaturePolicy", Verif.Rfc5126.SignaturePolicy, Std.Rfc5126.SignaturePolicy⟩,
    ⟨"rfc5126.DisplayText", Verif.Rfc5126.DisplayText, Std.Rfc5126.DisplayText⟩,
    ⟨"rfc5126.NoticeReference", Verif.Rfc5126.NoticeReference, Std.Rfc5126.NoticeReference⟩,
    ⟨"rfc5126.SPUserNotice", Verif.Rfc5126.SPUserNotice, Std.Rfc5126.SPUserNotice⟩,
    ⟨"rfc5126.SPuri", Verif.Rfc5126.SPuri, Std.Rfc5126.SPuri⟩,
    ⟨"rfc5126.CommitmentTypeIdentifier", Verif.Rfc5126.CommitmentTypeIdentifier, Std.Rfc5126.CommitmentTypeIdentifier⟩,
    ⟨"rfc5126.CommitmentTypeQualifier", Verif.Rfc5126.CommitmentTypeQualifier, Std.Rfc5126.CommitmentTypeQualifier⟩,
    ⟨"rfc5126.CommitmentTypeIndication", Verif.Rfc5126.CommitmentTypeIndication, Std.Rfc5126.CommitmentTypeIndication⟩,
    ⟨"rfc5126.PostalAddress", Verif.Rfc5126.PostalAddress, Std.Rfc5126.PostalAddress⟩,
    ⟨"rfc5126.SignerLocation", Verif.Rfc5126.SignerLocation, Std.Rfc5126.SignerLocation⟩,
    ⟨"rfc5126.SignatureTimeStampToken", Verif.Rfc5126.SignatureTimeStampToken, Std.Rfc5126.SignatureTimeStampToken⟩,
    ⟨"rfc5126.ContentTimestamp", Verif.Rfc5126.ContentTimestamp, Std.Rfc5126.ContentTimestamp⟩,
    ⟨"rfc5126.ClaimedAttributes", Verif.Rfc5126.ClaimedAttributes, Std.Rfc5126.ClaimedAttributes⟩,
    ⟨"rfc5126.CertifiedAttributes", Verif.Rfc5126.CertifiedAttributes, Std.Rfc5126.CertifiedAttributes⟩,
    ⟨"rfc5126.SignerAttribute", Verif.Rfc5126.SignerAttribute, Std.Rfc5126.SignerAttribute⟩,
    ⟨"rfc5126.CompleteCertificateRefs", Verif.Rfc5126.CompleteCertificateRefs, Std.Rfc5126.CompleteCertificateRefs⟩,
    ⟨"rfc5126.CrlIdentifier", Verif.Rfc5126.CrlIdentifier, Std.Rfc5126.CrlIdentifier⟩,
    ⟨"rfc5126.CrlValidatedID", Verif.Rfc5126.CrlValidatedID, Std.Rfc5126.CrlValidatedID⟩,
    ⟨"rfc5126.CRLListID", Verif.Rfc5126.CRLListID, Std.Rfc5126.CRLListID⟩,
    ⟨"rfc5126.OcspIdentifier", Verif.Rfc5126.OcspIdentifier, Std.Rfc5126.OcspIdentifier⟩,
    ⟨"rfc5126.OcspResponsesID", Verif.Rfc5126.OcspResponsesID, Std.Rfc5126.OcspResponsesID⟩,
    ⟨"rfc5126.OcspListID", Verif.Rfc5126.OcspListID, Std.Rfc5126.OcspListID⟩,
    ⟨"rfc5126.OtherRevRefType", Verif.Rfc5126.OtherRevRefType, Std.Rfc5126.OtherRevRefType⟩,
    ⟨"rfc5126.OtherRevRefs", Verif.Rfc5126.OtherRevRefs, Std.Rfc5126.OtherRevRefs⟩,
    ⟨"rfc5126.CrlOcspRef", Verif.Rfc5126.CrlOcspRef, Std.Rfc5126.CrlOcspRef⟩,
    ⟨"rfc5126.CompleteRevocationRefs", Verif.Rfc5126.CompleteRevocationRefs, Std.Rfc5126.CompleteRevocationRefs⟩,
    ⟨"rfc5126.CertificateValues", Verif.Rfc5126.CertificateValues, Std.Rfc5126.CertificateValues⟩,
    ⟨"rfc5126.OtherRevValType", Verif.Rfc5126.OtherRevValType, Std.Rfc5126.OtherRevValType⟩,
    ⟨"rfc5126.OtherRevVals", Verif.Rfc5126.OtherRevVals, Std.Rfc5126.OtherRevVals⟩,
    ⟨"rfc5126.RevocationValues", Verif.Rfc5126.RevocationValues, Std.Rfc5126.RevocationValues⟩,
    ⟨"rfc5126.ESCTimeStampToken", Verif.Rfc5126.ESCTimeStampToken, Std.Rfc5126.ESCTimeStampToken⟩,
    ⟨"rfc5126.TimestampedCertsCRLs", Verif.Rfc5126.TimestampedCertsCRLs, Std.Rfc5126.TimestampedCertsCRLs⟩,
    ⟨"rfc5126.ArchiveTimeStampToken", Verif.Rfc5126.ArchiveTimeStampToken, Std.Rfc5126.ArchiveTimeStampToken⟩,
    ⟨"rfc5126.AttributeCertificateRefs", Verif.Rfc5126.AttributeCertificateRefs, Std.Rfc5126.AttributeCertificateRefs⟩,
    ⟨"rfc5126.AttributeRevocationRefs", Verif.Rfc5126.AttributeRevocationRefs, Std.Rfc5126.AttributeRevocationRefs⟩]⟩

end Rfc5126
end Built
end Verif
