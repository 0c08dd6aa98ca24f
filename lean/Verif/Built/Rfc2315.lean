import Verif.Spec.Built
import Verif.Std.Rfc2315
import Verif.Built.Rfc2459
import Verif.Std.Rfc2459

/-! What rfc2315.py implements, where that is not the standard (generated by tools/builtgen.py). -/

namespace Verif
namespace Built
namespace Rfc2315

open Asn1 Verif.Std Spec.X680 Spec.Built

/-- `TBSCertificateRevocationList ::=` -/
def TBSCertificateRevocationList : Ty :=
  SEQUENCE [
    mandatory "signature" Std.Rfc2459.AlgorithmIdentifier,
    mandatory "issuer" Built.Rfc2459.Name,
    mandatory "lastUpdate" UTCTime,
    mandatory "nextUpdate" UTCTime,
    optional "revokedCertificates" (SEQUENCE_OF Std.Rfc2315.CRLEntry)]

/-- `CertificateRevocationList ::=` -/
def CertificateRevocationList : Ty :=
  SEQUENCE [
    mandatory "tbsCertificateRevocationList" Built.Rfc2315.TBSCertificateRevocationList,
    mandatory "signatureAlgorithm" Std.Rfc2459.AlgorithmIdentifier,
    mandatory "signature" BIT_STRING]

/-- `CertificateRevocationLists ::=` -/
def CertificateRevocationLists : Ty :=
  SET_OF Built.Rfc2315.CertificateRevocationList

/-- `Attribute ::=`, changed or supplied -/
def Attribute : Ty :=
  SEQUENCE [
    mandatory "type" Std.Rfc2459.AttributeType,
    mandatory "values" (SET_OF Std.Rfc2459.AttributeValue)]

/-- `Attributes ::=` -/
def Attributes : Ty :=
  SET_OF Built.Rfc2315.Attribute

/-- `ExtendedCertificateInfo ::=` -/
def ExtendedCertificateInfo : Ty :=
  SEQUENCE [
    mandatory "version" Std.Rfc2315.Version,
    mandatory "certificate" Built.Rfc2459.Certificate,
    mandatory "attributes" Built.Rfc2315.Attributes]

/-- `ExtendedCertificate ::=` -/
def ExtendedCertificate : Ty :=
  SEQUENCE [
    mandatory "extendedCertificateInfo" Built.Rfc2315.ExtendedCertificateInfo,
    mandatory "signatureAlgorithm" Std.Rfc2459.AlgorithmIdentifier,
    mandatory "signature" Std.Rfc2315.Signature]

/-- `ExtendedCertificateOrCertificate ::=` -/
def ExtendedCertificateOrCertificate : Ty :=
  CHOICE [
    mandatory "certificate" Built.Rfc2459.Certificate,
    mandatory "extendedCertificate" (implicit .context 0 Built.Rfc2315.ExtendedCertificate)]

/-- `ExtendedCertificatesAndCertificates ::=` -/
def ExtendedCertificatesAndCertificates : Ty :=
  SET_OF Built.Rfc2315.ExtendedCertificateOrCertificate

/-- `IssuerAndSerialNumber ::=` -/
def IssuerAndSerialNumber : Ty :=
  SEQUENCE [
    mandatory "issuer" Built.Rfc2459.Name,
    mandatory "serialNumber" Std.Rfc2459.CertificateSerialNumber]

/-- `SignerInfo ::=` -/
def SignerInfo : Ty :=
  SEQUENCE [
    mandatory "version" Std.Rfc2315.Version,
    mandatory "issuerAndSerialNumber" Built.Rfc2315.IssuerAndSerialNumber,
    mandatory "digestAlgorithm" Std.Rfc2315.DigestAlgorithmIdentifier,
    optional "authenticatedAttributes" (implicit .context 0 Built.Rfc2315.Attributes),
    mandatory "digestEncryptionAlgorithm" Std.Rfc2315.DigestEncryptionAlgorithmIdentifier,
    mandatory "encryptedDigest" Std.Rfc2315.EncryptedDigest,
    optional "unauthenticatedAttributes" (implicit .context 1 Built.Rfc2315.Attributes)]

/-- `SignerInfos ::=` -/
def SignerInfos : Ty :=
  SET_OF Built.Rfc2315.SignerInfo

/-- `SignedData ::=`, changed or supplied -/
def SignedData : Ty :=
  SEQUENCE [
    mandatory "version" Std.Rfc2315.Version,
    optional "digestAlgorithms" Std.Rfc2315.DigestAlgorithmIdentifiers,
    mandatory "contentInfo" Std.Rfc2315.ContentInfo,
    optional "certificates" (implicit .context 0 Built.Rfc2315.ExtendedCertificatesAndCertificates),
    optional "crls" (implicit .context 1 Built.Rfc2315.CertificateRevocationLists),
    optional "signerInfos" Built.Rfc2315.SignerInfos]

/-- `RecipientInfo ::=` -/
def RecipientInfo : Ty :=
  SEQUENCE [
    mandatory "version" Std.Rfc2315.Version,
    mandatory "issuerAndSerialNumber" Built.Rfc2315.IssuerAndSerialNumber,
    mandatory "keyEncryptionAlgorithm" Std.Rfc2315.KeyEncryptionAlgorithmIdentifier,
    mandatory "encryptedKey" Std.Rfc2315.EncryptedKey]

/-- `RecipientInfos ::=` -/
def RecipientInfos : Ty :=
  SET_OF Built.Rfc2315.RecipientInfo

/-- `EnvelopedData ::=` -/
def EnvelopedData : Ty :=
  SEQUENCE [
    mandatory "version" Std.Rfc2315.Version,
    mandatory "recipientInfos" Built.Rfc2315.RecipientInfos,
    mandatory "encryptedContentInfo" Std.Rfc2315.EncryptedContentInfo]

/-- `SignedAndEnvelopedData ::=` -/
def SignedAndEnvelopedData : Ty :=
  SEQUENCE [
    mandatory "version" Std.Rfc2315.Version,
    mandatory "recipientInfos" Built.Rfc2315.RecipientInfos,
    mandatory "digestAlgorithms" Std.Rfc2315.DigestAlgorithmIdentifiers,
    mandatory "encryptedContentInfo" Std.Rfc2315.EncryptedContentInfo,
    optional "certificates" (implicit .context 0 Built.Rfc2315.ExtendedCertificatesAndCertificates),
    optional "crls" (implicit .context 1 Built.Rfc2315.CertificateRevocationLists),
    mandatory "signerInfos" Built.Rfc2315.SignerInfos]

/-- `AttributeValueAssertion ::=`, changed or supplied -/
def AttributeValueAssertion : Ty :=
  SEQUENCE [
    mandatory "attributeType" Std.Rfc2459.AttributeType,
    mandatory "attributeValue" ANY]

/-- `SignatureAlgorithmIdentifier ::=`, changed or supplied -/
def SignatureAlgorithmIdentifier : Ty :=
  Std.Rfc2459.AlgorithmIdentifier

def description : Description :=
  ⟨Verif.Rfc2315.asModule,
   [⟨"rfc2315.Attribute", Verif.Rfc2315.Attribute, Built.Rfc2315.Attribute⟩,
    ⟨"rfc2315.Version", Verif.Rfc2315.Version, Std.Rfc2315.Version⟩,
    ⟨"rfc2315.AttributeValueAssertion", Verif.Rfc2315.AttributeValueAssertion, Built.Rfc2315.AttributeValueAssertion⟩,
    ⟨"rfc2315.ContentType", Verif.Rfc2315.ContentType, Std.Rfc2315.ContentType⟩,
    ⟨"rfc2315.ContentEncryptionAlgorithmIdentifier", Verif.Rfc2315.ContentEncryptionAlgorithmIdentifier, Std.Rfc2315.ContentEncryptionAlgorithmIdentifier⟩,
    ⟨"rfc2315.EncryptedContent", Verif.Rfc2315.EncryptedContent, Std.Rfc2315.EncryptedContent⟩,
    ⟨"rfc2315.EncryptedContentInfo", Verif.Rfc2315.EncryptedContentInfo, Std.Rfc2315.EncryptedContentInfo⟩,
    ⟨"rfc2315.EncryptedData", Verif.Rfc2315.EncryptedData, Std.Rfc2315.EncryptedData⟩,
    ⟨"rfc2315.DigestAlgorithmIdentifier", Verif.Rfc2315.DigestAlgorithmIdentifier, Std.Rfc2315.DigestAlgorithmIdentifier⟩,
    ⟨"rfc2315.DigestAlgorithmIdentifiers", Verif.Rfc2315.DigestAlgorithmIdentifiers, Std.Rfc2315.DigestAlgorithmIdentifiers⟩,
    ⟨"rfc2315.Digest", Verif.Rfc2315.Digest, Std.Rfc2315.Digest⟩,
    ⟨"rfc2315.ContentInfo", Verif.Rfc2315.ContentInfo, Std.Rfc2315.ContentInfo⟩,
    ⟨"rfc2315.DigestedData", Verif.Rfc2315.DigestedData, Std.Rfc2315.DigestedData⟩,
    ⟨"rfc2315.IssuerAndSerialNumber", Verif.Rfc2315.IssuerAndSerialNumber, Built.Rfc2315.IssuerAndSerialNumber⟩,
    ⟨"rfc2315.KeyEncryptionAlgorithmIdentifier", Verif.Rfc2315.KeyEncryptionAlgorithmIdentifier, Std.Rfc2315.KeyEncryptionAlgorithmIdentifier⟩,
    ⟨"rfc2315.EncryptedKey", Verif.Rfc2315.EncryptedKey, Std.Rfc2315.EncryptedKey⟩,
    ⟨"rfc2315.RecipientInfo", Verif.Rfc2315.RecipientInfo, Built.Rfc2315.RecipientInfo⟩,
    ⟨"rfc2315.RecipientInfos", Verif.Rfc2315.RecipientInfos, Built.Rfc2315.RecipientInfos⟩,
    ⟨"rfc2315.Attributes", Verif.Rfc2315.Attributes, Built.Rfc2315.Attributes⟩,
    ⟨"rfc2315.ExtendedCertificateInfo", Verif.Rfc2315.ExtendedCertificateInfo, Built.Rfc2315.ExtendedCertificateInfo⟩,
    ⟨"rfc2315.SignatureAlgorithmIdentifier", Verif.Rfc2315.SignatureAlgorithmIdentifier, Built.Rfc2315.SignatureAlgorithmIdentifier⟩,
    ⟨"rfc2315.Signature", Verif.Rfc2315.Signature, Std.Rfc2315.Signature⟩,
    ⟨"rfc2315.ExtendedCertificate", Verif.Rfc2315.ExtendedCertificate, Built.Rfc2315.ExtendedCertificate⟩,
    ⟨"rfc2315.ExtendedCertificateOrCertificate", Verif.Rfc2315.ExtendedCertificateOrCertificate, Built.Rfc2315.ExtendedCertificateOrCertificate⟩,
    ⟨"rfc2315.ExtendedCertificatesAndCertificates", Verif.Rfc2315.ExtendedCertificatesAndCertificates, Built.Rfc2315.ExtendedCertificatesAndCertificates⟩,
    ⟨"rfc2315.SerialNumber", Verif.Rfc2315.SerialNumber, Std.Rfc2315.SerialNumber⟩,
    ⟨"rfc2315.CRLEntry", Verif.Rfc2315.CRLEntry, Std.Rfc2315.CRLEntry⟩,
    ⟨"rfc2315.TBSCertificateRevocationList", Verif.Rfc2315.TBSCertificateRevocationList, Built.Rfc2315.TBSCertificateRevocationList⟩,
    ⟨"rfc2315.CertificateRevocationList", Verif.Rfc2315.CertificateRevocationList, Built.Rfc2315.CertificateRevocationList⟩,
    ⟨"rfc2315.CertificateRevocationLists", Verif.Rfc2315.CertificateRevocationLists, Built.Rfc2315.CertificateRevocationLists⟩,
    ⟨"rfc2315.DigestEncryptionAlgorithmIdentifier", Verif.Rfc2315.DigestEncryptionAlgorithmIdentifier, Std.Rfc2315.DigestEncryptionAlgorithmIdentifier⟩,
    ⟨"rfc2315.EncryptedDigest", Verif.Rfc2315.EncryptedDigest, Std.Rfc2315.EncryptedDigest⟩,
    ⟨"rfc2315.SignerInfo", Verif.Rfc2315.SignerInfo, Built.Rfc2315.SignerInfo⟩,
    ⟨"rfc2315.SignerInfos", Verif.Rfc2315.SignerInfos, Built.Rfc2315.SignerInfos⟩,
    ⟨"rfc2315.SignedAndEnvelopedData", Verif.Rfc2315.SignedAndEnvelopedData, Built.Rfc2315.SignedAndEnvelopedData⟩,
    ⟨"rfc2315.EnvelopedData", Verif.Rfc2315.EnvelopedData, Built.Rfc2315.EnvelopedData⟩,
    ⟨"rfc2315.DigestInfo", Verif.Rfc2315.DigestInfo, Std.Rfc2315.DigestInfo⟩,
    ⟨"rfc2315.SignedData", Verif.Rfc2315.SignedData, Built.Rfc2315.SignedData⟩,
    ⟨"rfc2315.Data", Verif.Rfc2315.Data, Std.Rfc2315.Data⟩]⟩

end Rfc2315
end Built
end Verif
