import Verif.Spec.Grade
import Verif.Gen.Rfc2315
import Verif.Std.Rfc2459

/-! The ASN.1 of tools/std/rfc2315.asn1 (generated by tools/stdgen.py). -/

namespace Verif
namespace Std
namespace Rfc2315

open Asn1 Spec.X680

/-- `SerialNumber ::=` -/
def SerialNumber : Ty :=
  INTEGER

/-- `CRLEntry ::=` -/
def CRLEntry : Ty :=
  SEQUENCE [
    mandatory "userCertificate" SerialNumber,
    mandatory "revocationDate" UTCTime]

/-- `TBSCertificateRevocationList ::=` -/
def TBSCertificateRevocationList : Ty :=
  SEQUENCE [
    mandatory "signature" Std.Rfc2459.AlgorithmIdentifier,
    mandatory "issuer" Std.Rfc2459.Name,
    mandatory "lastUpdate" UTCTime,
    mandatory "nextUpdate" UTCTime,
    optional "revokedCertificates" (SEQUENCE_OF CRLEntry)]

/-- `CertificateRevocationList ::=` -/
def CertificateRevocationList : Ty :=
  SEQUENCE [
    mandatory "tbsCertificateRevocationList" TBSCertificateRevocationList,
    mandatory "signatureAlgorithm" Std.Rfc2459.AlgorithmIdentifier,
    mandatory "signature" BIT_STRING]

/-- `CertificateRevocationLists ::=` -/
def CertificateRevocationLists : Ty :=
  SET_OF CertificateRevocationList

/-- `ContentEncryptionAlgorithmIdentifier ::=` -/
def ContentEncryptionAlgorithmIdentifier : Ty :=
  Std.Rfc2459.AlgorithmIdentifier

/-- `DigestAlgorithmIdentifier ::=` -/
def DigestAlgorithmIdentifier : Ty :=
  Std.Rfc2459.AlgorithmIdentifier

/-- `DigestEncryptionAlgorithmIdentifier ::=` -/
def DigestEncryptionAlgorithmIdentifier : Ty :=
  Std.Rfc2459.AlgorithmIdentifier

/-- `Version ::=` -/
def Version : Ty :=
  INTEGER

/-- `Attributes ::=` -/
def Attributes : Ty :=
  SET_OF Std.Rfc2459.Attribute

/-- `ExtendedCertificateInfo ::=` -/
def ExtendedCertificateInfo : Ty :=
  SEQUENCE [
    mandatory "version" Version,
    mandatory "certificate" Std.Rfc2459.Certificate,
    mandatory "attributes" Attributes]

/-- `Signature ::=` -/
def Signature : Ty :=
  BIT_STRING

/-- `ExtendedCertificate ::=` -/
def ExtendedCertificate : Ty :=
  SEQUENCE [
    mandatory "extendedCertificateInfo" ExtendedCertificateInfo,
    mandatory "signatureAlgorithm" Std.Rfc2459.AlgorithmIdentifier,
    mandatory "signature" Signature]

/-- `ExtendedCertificateOrCertificate ::=` -/
def ExtendedCertificateOrCertificate : Ty :=
  CHOICE [
    mandatory "certificate" Std.Rfc2459.Certificate,
    mandatory "extendedCertificate" (implicit .context 0 ExtendedCertificate)]

/-- `ExtendedCertificatesAndCertificates ::=` -/
def ExtendedCertificatesAndCertificates : Ty :=
  SET_OF ExtendedCertificateOrCertificate

/-- `IssuerAndSerialNumber ::=` -/
def IssuerAndSerialNumber : Ty :=
  SEQUENCE [
    mandatory "issuer" Std.Rfc2459.Name,
    mandatory "serialNumber" Std.Rfc2459.CertificateSerialNumber]

/-- `KeyEncryptionAlgorithmIdentifier ::=` -/
def KeyEncryptionAlgorithmIdentifier : Ty :=
  Std.Rfc2459.AlgorithmIdentifier

/-- `ContentType ::=` -/
def ContentType : Ty :=
  OBJECT_IDENTIFIER

/-- `ContentInfo ::=` -/
def ContentInfo : Ty :=
  SEQUENCE [
    mandatory "contentType" ContentType,
    optional "content" (explicit .context 0 ANY)]

/-- `Data ::=` -/
def Data : Ty :=
  OCTET_STRING

/-- `DigestAlgorithmIdentifiers ::=` -/
def DigestAlgorithmIdentifiers : Ty :=
  SET_OF DigestAlgorithmIdentifier

/-- `EncryptedDigest ::=` -/
def EncryptedDigest : Ty :=
  OCTET_STRING

/-- `SignerInfo ::=` -/
def SignerInfo : Ty :=
  SEQUENCE [
    mandatory "version" Version,
    mandatory "issuerAndSerialNumber" IssuerAndSerialNumber,
    mandatory "digestAlgorithm" DigestAlgorithmIdentifier,
    optional "authenticatedAttributes" (implicit .context 0 Attributes),
    mandatory "digestEncryptionAlgorithm" DigestEncryptionAlgorithmIdentifier,
    mandatory "encryptedDigest" EncryptedDigest,
    optional "unauthenticatedAttributes" (implicit .context 1 Attributes)]

/-- `SignerInfos ::=` -/
def SignerInfos : Ty :=
  SET_OF SignerInfo

/-- `SignedData ::=` -/
def SignedData : Ty :=
  SEQUENCE [
    mandatory "version" Version,
    mandatory "digestAlgorithms" DigestAlgorithmIdentifiers,
    mandatory "contentInfo" ContentInfo,
    optional "certificates" (implicit .context 0 ExtendedCertificatesAndCertificates),
    optional "crls" (implicit .context 1 CertificateRevocationLists),
    mandatory "signerInfos" SignerInfos]

/-- `Digest ::=` -/
def Digest : Ty :=
  OCTET_STRING

/-- `DigestInfo ::=` -/
def DigestInfo : Ty :=
  SEQUENCE [
    mandatory "digestAlgorithm" DigestAlgorithmIdentifier,
    mandatory "digest" Digest]

/-- `EncryptedKey ::=` -/
def EncryptedKey : Ty :=
  OCTET_STRING

/-- `RecipientInfo ::=` -/
def RecipientInfo : Ty :=
  SEQUENCE [
    mandatory "version" Version,
    mandatory "issuerAndSerialNumber" IssuerAndSerialNumber,
    mandatory "keyEncryptionAlgorithm" KeyEncryptionAlgorithmIdentifier,
    mandatory "encryptedKey" EncryptedKey]

/-- `RecipientInfos ::=` -/
def RecipientInfos : Ty :=
  SET_OF RecipientInfo

/-- `EncryptedContent ::=` -/
def EncryptedContent : Ty :=
  OCTET_STRING

/-- `EncryptedContentInfo ::=` -/
def EncryptedContentInfo : Ty :=
  SEQUENCE [
    mandatory "contentType" ContentType,
    mandatory "contentEncryptionAlgorithm" ContentEncryptionAlgorithmIdentifier,
    optional "encryptedContent" (implicit .context 0 EncryptedContent)]

/-- `EnvelopedData ::=` -/
def EnvelopedData : Ty :=
  SEQUENCE [
    mandatory "version" Version,
    mandatory "recipientInfos" RecipientInfos,
    mandatory "encryptedContentInfo" EncryptedContentInfo]

/-- `SignedAndEnvelopedData ::=` -/
def SignedAndEnvelopedData : Ty :=
  SEQUENCE [
    mandatory "version" Version,
    mandatory "recipientInfos" RecipientInfos,
    mandatory "digestAlgorithms" DigestAlgorithmIdentifiers,
    mandatory "encryptedContentInfo" EncryptedContentInfo,
    optional "certificates" (implicit .context 0 ExtendedCertificatesAndCertificates),
    optional "crls" (implicit .context 1 CertificateRevocationLists),
    mandatory "signerInfos" SignerInfos]

/-- `DigestedData ::=` -/
def DigestedData : Ty :=
  SEQUENCE [
    mandatory "version" Version,
    mandatory "digestAlgorithm" DigestAlgorithmIdentifier,
    mandatory "contentInfo" ContentInfo,
    mandatory "digest" Digest]

/-- `EncryptedData ::=` -/
def EncryptedData : Ty :=
  SEQUENCE [
    mandatory "version" Version,
    mandatory "encryptedContentInfo" EncryptedContentInfo]

/-- Classes of rfc2315.py and the types of the standard they implement. -/
def entries : List Entry :=
  [⟨"rfc2315.Attribute", Verif.Rfc2315.Attribute, Std.Rfc2459.Attribute, .same, false⟩,
   ⟨"rfc2315.Version", Verif.Rfc2315.Version, Version, .same, false⟩,
   ⟨"rfc2315.ContentType", Verif.Rfc2315.ContentType, ContentType, .same, false⟩,
   ⟨"rfc2315.ContentEncryptionAlgorithmIdentifier", Verif.Rfc2315.ContentEncryptionAlgorithmIdentifier, ContentEncryptionAlgorithmIdentifier, .same, false⟩,
   ⟨"rfc2315.EncryptedContent", Verif.Rfc2315.EncryptedContent, EncryptedContent, .same, false⟩,
   ⟨"rfc2315.EncryptedContentInfo", Verif.Rfc2315.EncryptedContentInfo, EncryptedContentInfo, .same, false⟩,
   ⟨"rfc2315.EncryptedData", Verif.Rfc2315.EncryptedData, EncryptedData, .same, false⟩,
   ⟨"rfc2315.DigestAlgorithmIdentifier", Verif.Rfc2315.DigestAlgorithmIdentifier, DigestAlgorithmIdentifier, .same, false⟩,
   ⟨"rfc2315.DigestAlgorithmIdentifiers", Verif.Rfc2315.DigestAlgorithmIdentifiers, DigestAlgorithmIdentifiers, .same, false⟩,
   ⟨"rfc2315.Digest", Verif.Rfc2315.Digest, Digest, .same, false⟩,
   ⟨"rfc2315.ContentInfo", Verif.Rfc2315.ContentInfo, ContentInfo, .same, false⟩,
   ⟨"rfc2315.DigestedData", Verif.Rfc2315.DigestedData, DigestedData, .same, false⟩,
   ⟨"rfc2315.IssuerAndSerialNumber", Verif.Rfc2315.IssuerAndSerialNumber, IssuerAndSerialNumber, .relaxed, false⟩,
   ⟨"rfc2315.KeyEncryptionAlgorithmIdentifier", Verif.Rfc2315.KeyEncryptionAlgorithmIdentifier, KeyEncryptionAlgorithmIdentifier, .same, false⟩,
   ⟨"rfc2315.EncryptedKey", Verif.Rfc2315.EncryptedKey, EncryptedKey, .same, false⟩,
   ⟨"rfc2315.RecipientInfo", Verif.Rfc2315.RecipientInfo, RecipientInfo, .relaxed, false⟩,
   ⟨"rfc2315.RecipientInfos", Verif.Rfc2315.RecipientInfos, RecipientInfos, .relaxed, false⟩,
   ⟨"rfc2315.Attributes", Verif.Rfc2315.Attributes, Attributes, .same, false⟩,
   ⟨"rfc2315.ExtendedCertificateInfo", Verif.Rfc2315.ExtendedCertificateInfo, ExtendedCertificateInfo, .relaxed, false⟩,
   ⟨"rfc2315.Signature", Verif.Rfc2315.Signature, Signature, .same, false⟩,
   ⟨"rfc2315.ExtendedCertificate", Verif.Rfc2315.ExtendedCertificate, ExtendedCertificate, .relaxed, false⟩,
   ⟨"rfc2315.ExtendedCertificateOrCertificate", Verif.Rfc2315.ExtendedCertificateOrCertificate, ExtendedCertificateOrCertificate, .relaxed, false⟩,
   ⟨"rfc2315.ExtendedCertificatesAndCertificates", Verif.Rfc2315.ExtendedCertificatesAndCertificates, ExtendedCertificatesAndCertificates, .relaxed, false⟩,
   ⟨"rfc2315.SerialNumber", Verif.Rfc2315.SerialNumber, SerialNumber, .same, false⟩,
   ⟨"rfc2315.CRLEntry", Verif.Rfc2315.CRLEntry, CRLEntry, .same, false⟩,
   ⟨"rfc2315.TBSCertificateRevocationList", Verif.Rfc2315.TBSCertificateRevocationList, TBSCertificateRevocationList, .relaxed, false⟩,
   ⟨"rfc2315.CertificateRevocationList", Verif.Rfc2315.CertificateRevocationList, CertificateRevocationList, .relaxed, false⟩,
   ⟨"rfc2315.CertificateRevocationLists", Verif.Rfc2315.CertificateRevocationLists, CertificateRevocationLists, .relaxed, false⟩,
   ⟨"rfc2315.DigestEncryptionAlgorithmIdentifier", Verif.Rfc2315.DigestEncryptionAlgorithmIdentifier, DigestEncryptionAlgorithmIdentifier, .same, false⟩,
   ⟨"rfc2315.EncryptedDigest", Verif.Rfc2315.EncryptedDigest, EncryptedDigest, .same, false⟩,
   ⟨"rfc2315.SignerInfo", Verif.Rfc2315.SignerInfo, SignerInfo, .relaxed, false⟩,
   ⟨"rfc2315.SignerInfos", Verif.Rfc2315.SignerInfos, SignerInfos, .relaxed, false⟩,
   ⟨"rfc2315.SignedAndEnvelopedData", Verif.Rfc2315.SignedAndEnvelopedData, SignedAndEnvelopedData, .relaxed, false⟩,
   ⟨"rfc2315.EnvelopedData", Verif.Rfc2315.EnvelopedData, EnvelopedData, .relaxed, false⟩,
   ⟨"rfc2315.DigestInfo", Verif.Rfc2315.DigestInfo, DigestInfo, .same, false⟩,
   ⟨"rfc2315.SignedData", Verif.Rfc2315.SignedData, SignedData, .widened, false⟩,
   ⟨"rfc2315.Data", Verif.Rfc2315.Data, Data, .same, false⟩]

/-- Classes of rfc2315.py the transcription of the standard has no type for. -/
def beyond : List String :=
  ["rfc2315.AttributeValueAssertion",
   "rfc2315.SignatureAlgorithmIdentifier"]

/-- Constants of rfc2315.py and the values the standard gives them. -/
def constants : List Constant :=
  [⟨"rfc2315.pkcs_7", Verif.Rfc2315.pkcs_7, OBJECT_IDENTIFIER, .oid [1, 2, 840, 113549, 1, 7], true⟩,
   ⟨"rfc2315.data", Verif.Rfc2315.data, OBJECT_IDENTIFIER, .oid [1, 2, 840, 113549, 1, 7, 1], true⟩,
   ⟨"rfc2315.signedData", Verif.Rfc2315.signedData, OBJECT_IDENTIFIER, .oid [1, 2, 840, 113549, 1, 7, 2], true⟩,
   ⟨"rfc2315.envelopedData", Verif.Rfc2315.envelopedData, OBJECT_IDENTIFIER, .oid [1, 2, 840, 113549, 1, 7, 3], true⟩,
   ⟨"rfc2315.signedAndEnvelopedData", Verif.Rfc2315.signedAndEnvelopedData, OBJECT_IDENTIFIER, .oid [1, 2, 840, 113549, 1, 7, 4], true⟩,
   ⟨"rfc2315.digestedData", Verif.Rfc2315.digestedData, OBJECT_IDENTIFIER, .oid [1, 2, 840, 113549, 1, 7, 5], true⟩,
   ⟨"rfc2315.encryptedData", Verif.Rfc2315.encryptedData, OBJECT_IDENTIFIER, .oid [1, 2, 840, 113549, 1, 7, 6], true⟩]

/-- Constants of rfc2315.py the transcription of the standard has no value for. -/
def others : List String :=
  []

def standard : Standard := ⟨Verif.Rfc2315.asModule, entries, beyond, constants, others⟩

end Rfc2315
end Std
end Verif
