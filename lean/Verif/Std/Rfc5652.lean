import Verif.Spec.Grade
import Verif.Gen.Rfc5652
import Verif.Std.Rfc3281
import Verif.Std.Rfc5280

/-! The ASN.1 of tools/std/rfc5652.asn1 (generated by tools/stdgen.py). -/

namespace Verif
namespace Std
namespace Rfc5652

open Asn1 Spec.X680

/-- `ContentType ::=` -/
def ContentType : Ty :=
  OBJECT_IDENTIFIER

/-- `ContentInfo ::=` -/
def ContentInfo : Ty :=
  SEQUENCE [
    mandatory "contentType" ContentType,
    mandatory "content" (explicit .context 0 ANY)]

/-- `CMSVersion ::=` -/
def CMSVersion : Ty :=
  named [("v0", 0), ("v1", 1), ("v2", 2), ("v3", 3), ("v4", 4), ("v5", 5)] INTEGER

/-- `DigestAlgorithmIdentifier ::=` -/
def DigestAlgorithmIdentifier : Ty :=
  Std.Rfc5280.AlgorithmIdentifier

/-- `DigestAlgorithmIdentifiers ::=` -/
def DigestAlgorithmIdentifiers : Ty :=
  SET_OF DigestAlgorithmIdentifier

/-- `EncapsulatedContentInfo ::=` -/
def EncapsulatedContentInfo : Ty :=
  SEQUENCE [
    mandatory "eContentType" ContentType,
    optional "eContent" (explicit .context 0 OCTET_STRING)]

/-- `AttributeValue ::=` -/
def AttributeValue : Ty :=
  ANY

/-- `Attribute ::=` -/
def Attribute : Ty :=
  SEQUENCE [
    mandatory "attrType" OBJECT_IDENTIFIER,
    mandatory "attrValues" (SET_OF AttributeValue)]

/-- `UnauthAttributes ::=` -/
def UnauthAttributes : Ty :=
  constrained (SIZE_MAX 1) (SET_OF Attribute)

/-- `ExtendedCertificateInfo ::=` -/
def ExtendedCertificateInfo : Ty :=
  SEQUENCE [
    mandatory "version" CMSVersion,
    mandatory "certificate" Std.Rfc5280.Certificate,
    mandatory "attributes" UnauthAttributes]

/-- `SignatureAlgorithmIdentifier ::=` -/
def SignatureAlgorithmIdentifier : Ty :=
  Std.Rfc5280.AlgorithmIdentifier

/-- `Signature ::=` -/
def Signature : Ty :=
  BIT_STRING

/-- `ExtendedCertificate ::=` -/
def ExtendedCertificate : Ty :=
  SEQUENCE [
    mandatory "extendedCertificateInfo" ExtendedCertificateInfo,
    mandatory "signatureAlgorithm" SignatureAlgorithmIdentifier,
    mandatory "signature" Signature]

/-- `AttCertVersionV1 ::=` -/
def AttCertVersionV1 : Ty :=
  named [("v1", 0)] INTEGER

/-- `AttributeCertificateInfoV1 ::=` -/
def AttributeCertificateInfoV1 : Ty :=
  SEQUENCE [
    default "version" AttCertVersionV1 (.int 0),
    mandatory "subject" (CHOICE [
      mandatory "baseCertificateID" (explicit .context 0 Std.Rfc3281.IssuerSerial),
      mandatory "subjectName" (explicit .context 1 Std.Rfc5280.GeneralNames)]),
    mandatory "issuer" Std.Rfc5280.GeneralNames,
    mandatory "signature" Std.Rfc5280.AlgorithmIdentifier,
    mandatory "serialNumber" Std.Rfc5280.CertificateSerialNumber,
    mandatory "attCertValidityPeriod" Std.Rfc3281.AttCertValidityPeriod,
    mandatory "attributes" (SEQUENCE_OF Std.Rfc5280.Attribute),
    optional "issuerUniqueID" Std.Rfc5280.UniqueIdentifier,
    optional "extensions" Std.Rfc5280.Extensions]

/-- `AttributeCertificateV1 ::=` -/
def AttributeCertificateV1 : Ty :=
  SEQUENCE [
    mandatory "acInfo" AttributeCertificateInfoV1,
    mandatory "signatureAlgorithm" Std.Rfc5280.AlgorithmIdentifier,
    mandatory "signature" BIT_STRING]

/-- `AttributeCertificateV2 ::=` -/
def AttributeCertificateV2 : Ty :=
  Std.Rfc3281.AttributeCertificate

/-- `OtherCertificateFormat ::=` -/
def OtherCertificateFormat : Ty :=
  SEQUENCE [
    mandatory "otherCertFormat" OBJECT_IDENTIFIER,
    mandatory "otherCert" ANY]

/-- `CertificateChoices ::=` -/
def CertificateChoices : Ty :=
  CHOICE [
    mandatory "certificate" Std.Rfc5280.Certificate,
    mandatory "extendedCertificate" (implicit .context 0 ExtendedCertificate),
    mandatory "v1AttrCert" (implicit .context 1 AttributeCertificateV1),
    mandatory "v2AttrCert" (implicit .context 2 AttributeCertificateV2),
    mandatory "other" (implicit .context 3 OtherCertificateFormat)]

/-- `CertificateSet ::=` -/
def CertificateSet : Ty :=
  SET_OF CertificateChoices

/-- `OtherRevocationInfoFormat ::=` -/
def OtherRevocationInfoFormat : Ty :=
  SEQUENCE [
    mandatory "otherRevInfoFormat" OBJECT_IDENTIFIER,
    mandatory "otherRevInfo" ANY]

/-- `RevocationInfoChoice ::=` -/
def RevocationInfoChoice : Ty :=
  CHOICE [
    mandatory "crl" Std.Rfc5280.CertificateList,
    mandatory "other" (implicit .context 1 OtherRevocationInfoFormat)]

/-- `RevocationInfoChoices ::=` -/
def RevocationInfoChoices : Ty :=
  SET_OF RevocationInfoChoice

/-- `IssuerAndSerialNumber ::=` -/
def IssuerAndSerialNumber : Ty :=
  SEQUENCE [
    mandatory "issuer" Std.Rfc5280.Name,
    mandatory "serialNumber" Std.Rfc5280.CertificateSerialNumber]

/-- `SubjectKeyIdentifier ::=` -/
def SubjectKeyIdentifier : Ty :=
  OCTET_STRING

/-- `SignerIdentifier ::=` -/
def SignerIdentifier : Ty :=
  CHOICE [
    mandatory "issuerAndSerialNumber" IssuerAndSerialNumber,
    mandatory "subjectKeyIdentifier" (implicit .context 0 SubjectKeyIdentifier)]

/-- `SignedAttributes ::=` -/
def SignedAttributes : Ty :=
  constrained (SIZE_MAX 1) (SET_OF Attribute)

/-- `SignatureValue ::=` -/
def SignatureValue : Ty :=
  OCTET_STRING

/-- `UnsignedAttributes ::=` -/
def UnsignedAttributes : Ty :=
  constrained (SIZE_MAX 1) (SET_OF Attribute)

/-- `SignerInfo ::=` -/
def SignerInfo : Ty :=
  SEQUENCE [
    mandatory "version" CMSVersion,
    mandatory "sid" SignerIdentifier,
    mandatory "digestAlgorithm" DigestAlgorithmIdentifier,
    optional "signedAttrs" (implicit .context 0 SignedAttributes),
    mandatory "signatureAlgorithm" SignatureAlgorithmIdentifier,
    mandatory "signature" SignatureValue,
    optional "unsignedAttrs" (implicit .context 1 UnsignedAttributes)]

/-- `SignerInfos ::=` -/
def SignerInfos : Ty :=
  SET_OF SignerInfo

/-- `SignedData ::=` -/
def SignedData : Ty :=
  SEQUENCE [
    mandatory "version" CMSVersion,
    mandatory "digestAlgorithms" DigestAlgorithmIdentifiers,
    mandatory "encapContentInfo" EncapsulatedContentInfo,
    optional "certificates" (implicit .context 0 CertificateSet),
    optional "crls" (implicit .context 1 RevocationInfoChoices),
    mandatory "signerInfos" SignerInfos]

/-- `OriginatorInfo ::=` -/
def OriginatorInfo : Ty :=
  SEQUENCE [
    optional "certs" (implicit .context 0 CertificateSet),
    optional "crls" (implicit .context 1 RevocationInfoChoices)]

/-- `RecipientIdentifier ::=` -/
def RecipientIdentifier : Ty :=
  CHOICE [
    mandatory "issuerAndSerialNumber" IssuerAndSerialNumber,
    mandatory "subjectKeyIdentifier" (implicit .context 0 SubjectKeyIdentifier)]

/-- `KeyEncryptionAlgorithmIdentifier ::=` -/
def KeyEncryptionAlgorithmIdentifier : Ty :=
  Std.Rfc5280.AlgorithmIdentifier

/-- `EncryptedKey ::=` -/
def EncryptedKey : Ty :=
  OCTET_STRING

/-- `KeyTransRecipientInfo ::=` -/
def KeyTransRecipientInfo : Ty :=
  SEQUENCE [
    mandatory "version" CMSVersion,
    mandatory "rid" RecipientIdentifier,
    mandatory "keyEncryptionAlgorithm" KeyEncryptionAlgorithmIdentifier,
    mandatory "encryptedKey" EncryptedKey]

/-- `OriginatorPublicKey ::=` -/
def OriginatorPublicKey : Ty :=
  SEQUENCE [
    mandatory "algorithm" Std.Rfc5280.AlgorithmIdentifier,
    mandatory "publicKey" BIT_STRING]

/-- `OriginatorIdentifierOrKey ::=` -/
def OriginatorIdentifierOrKey : Ty :=
  CHOICE [
    mandatory "issuerAndSerialNumber" IssuerAndSerialNumber,
    mandatory "subjectKeyIdentifier" (implicit .context 0 SubjectKeyIdentifier),
    mandatory "originatorKey" (implicit .context 1 OriginatorPublicKey)]

/-- `UserKeyingMaterial ::=` -/
def UserKeyingMaterial : Ty :=
  OCTET_STRING

/-- `OtherKeyAttribute ::=` -/
def OtherKeyAttribute : Ty :=
  SEQUENCE [
    mandatory "keyAttrId" OBJECT_IDENTIFIER,
    optional "keyAttr" ANY]

/-- `RecipientKeyIdentifier ::=` -/
def RecipientKeyIdentifier : Ty :=
  SEQUENCE [
    mandatory "subjectKeyIdentifier" SubjectKeyIdentifier,
    optional "date" GeneralizedTime,
    optional "other" OtherKeyAttribute]

/-- `KeyAgreeRecipientIdentifier ::=` -/
def KeyAgreeRecipientIdentifier : Ty :=
  CHOICE [
    mandatory "issuerAndSerialNumber" IssuerAndSerialNumber,
    mandatory "rKeyId" (implicit .context 0 RecipientKeyIdentifier)]

/-- `RecipientEncryptedKey ::=` -/
def RecipientEncryptedKey : Ty :=
  SEQUENCE [
    mandatory "rid" KeyAgreeRecipientIdentifier,
    mandatory "encryptedKey" EncryptedKey]

/-- `RecipientEncryptedKeys ::=` -/
def RecipientEncryptedKeys : Ty :=
  SEQUENCE_OF RecipientEncryptedKey

/-- `KeyAgreeRecipientInfo ::=` -/
def KeyAgreeRecipientInfo : Ty :=
  SEQUENCE [
    mandatory "version" CMSVersion,
    mandatory "originator" (explicit .context 0 OriginatorIdentifierOrKey),
    optional "ukm" (explicit .context 1 UserKeyingMaterial),
    mandatory "keyEncryptionAlgorithm" KeyEncryptionAlgorithmIdentifier,
    mandatory "recipientEncryptedKeys" RecipientEncryptedKeys]

/-- `KEKIdentifier ::=` -/
def KEKIdentifier : Ty :=
  SEQUENCE [
    mandatory "keyIdentifier" OCTET_STRING,
    optional "date" GeneralizedTime,
    optional "other" OtherKeyAttribute]

/-- `KEKRecipientInfo ::=` -/
def KEKRecipientInfo : Ty :=
  SEQUENCE [
    mandatory "version" CMSVersion,
    mandatory "kekid" KEKIdentifier,
    mandatory "keyEncryptionAlgorithm" KeyEncryptionAlgorithmIdentifier,
    mandatory "encryptedKey" EncryptedKey]

/-- `KeyDerivationAlgorithmIdentifier ::=` -/
def KeyDerivationAlgorithmIdentifier : Ty :=
  Std.Rfc5280.AlgorithmIdentifier

/-- `PasswordRecipientInfo ::=` -/
def PasswordRecipientInfo : Ty :=
  SEQUENCE [
    mandatory "version" CMSVersion,
    optional "keyDerivationAlgorithm" (implicit .context 0 KeyDerivationAlgorithmIdentifier),
    mandatory "keyEncryptionAlgorithm" KeyEncryptionAlgorithmIdentifier,
    mandatory "encryptedKey" EncryptedKey]

/-- `OtherRecipientInfo ::=` -/
def OtherRecipientInfo : Ty :=
  SEQUENCE [
    mandatory "oriType" OBJECT_IDENTIFIER,
    mandatory "oriValue" ANY]

/-- `RecipientInfo ::=` -/
def RecipientInfo : Ty :=
  CHOICE [
    mandatory "ktri" KeyTransRecipientInfo,
    mandatory "kari" (implicit .context 1 KeyAgreeRecipientInfo),
    mandatory "kekri" (implicit .context 2 KEKRecipientInfo),
    mandatory "pwri" (implicit .context 3 PasswordRecipientInfo),
    mandatory "ori" (implicit .context 4 OtherRecipientInfo)]

/-- `RecipientInfos ::=` -/
def RecipientInfos : Ty :=
  constrained (SIZE_MAX 1) (SET_OF RecipientInfo)

/-- `ContentEncryptionAlgorithmIdentifier ::=` -/
def ContentEncryptionAlgorithmIdentifier : Ty :=
  Std.Rfc5280.AlgorithmIdentifier

/-- `EncryptedContent ::=` -/
def EncryptedContent : Ty :=
  OCTET_STRING

/-- `EncryptedContentInfo ::=` -/
def EncryptedContentInfo : Ty :=
  SEQUENCE [
    mandatory "contentType" ContentType,
    mandatory "contentEncryptionAlgorithm" ContentEncryptionAlgorithmIdentifier,
    optional "encryptedContent" (implicit .context 0 EncryptedContent)]

/-- `UnprotectedAttributes ::=` -/
def UnprotectedAttributes : Ty :=
  constrained (SIZE_MAX 1) (SET_OF Attribute)

/-- `EnvelopedData ::=` -/
def EnvelopedData : Ty :=
  SEQUENCE [
    mandatory "version" CMSVersion,
    optional "originatorInfo" (implicit .context 0 OriginatorInfo),
    mandatory "recipientInfos" RecipientInfos,
    mandatory "encryptedContentInfo" EncryptedContentInfo,
    optional "unprotectedAttrs" (implicit .context 1 UnprotectedAttributes)]

/-- `Digest ::=` -/
def Digest : Ty :=
  OCTET_STRING

/-- `DigestedData ::=` -/
def DigestedData : Ty :=
  SEQUENCE [
    mandatory "version" CMSVersion,
    mandatory "digestAlgorithm" DigestAlgorithmIdentifier,
    mandatory "encapContentInfo" EncapsulatedContentInfo,
    mandatory "digest" Digest]

/-- `EncryptedData ::=` -/
def EncryptedData : Ty :=
  SEQUENCE [
    mandatory "version" CMSVersion,
    mandatory "encryptedContentInfo" EncryptedContentInfo,
    optional "unprotectedAttrs" (implicit .context 1 UnprotectedAttributes)]

/-- `MessageAuthenticationCodeAlgorithm ::=` -/
def MessageAuthenticationCodeAlgorithm : Ty :=
  Std.Rfc5280.AlgorithmIdentifier

/-- `AuthAttributes ::=` -/
def AuthAttributes : Ty :=
  constrained (SIZE_MAX 1) (SET_OF Attribute)

/-- `MessageAuthenticationCode ::=` -/
def MessageAuthenticationCode : Ty :=
  OCTET_STRING

/-- `AuthenticatedData ::=` -/
def AuthenticatedData : Ty :=
  SEQUENCE [
    mandatory "version" CMSVersion,
    optional "originatorInfo" (implicit .context 0 OriginatorInfo),
    mandatory "recipientInfos" RecipientInfos,
    mandatory "macAlgorithm" MessageAuthenticationCodeAlgorithm,
    optional "digestAlgorithm" (implicit .context 1 DigestAlgorithmIdentifier),
    mandatory "encapContentInfo" EncapsulatedContentInfo,
    optional "authAttrs" (implicit .context 2 AuthAttributes),
    mandatory "mac" MessageAuthenticationCode,
    optional "unauthAttrs" (implicit .context 3 UnauthAttributes)]

/-- `MessageDigest ::=` -/
def MessageDigest : Ty :=
  OCTET_STRING

/-- `Time ::=` -/
def Time : Ty :=
  CHOICE [
    mandatory "utcTime" UTCTime,
    mandatory "generalTime" GeneralizedTime]

/-- `SigningTime ::=` -/
def SigningTime : Ty :=
  Time

/-- `Countersignature ::=` -/
def Countersignature : Ty :=
  SignerInfo

/-- `ExtendedCertificateOrCertificate ::=` -/
def ExtendedCertificateOrCertificate : Ty :=
  CHOICE [
    mandatory "certificate" Std.Rfc5280.Certificate,
    mandatory "extendedCertificate" (implicit .context 0 ExtendedCertificate)]

/-- Classes of rfc5652.py and the types of the standard they implement. -/
def entries : List Entry :=
  [⟨"rfc5652.AttCertVersionV1", Verif.Rfc5652.AttCertVersionV1, AttCertVersionV1, .same, false⟩,
   ⟨"rfc5652.AttributeCertificateInfoV1", Verif.Rfc5652.AttributeCertificateInfoV1, AttributeCertificateInfoV1, .same, false⟩,
   ⟨"rfc5652.AttributeCertificateV1", Verif.Rfc5652.AttributeCertificateV1, AttributeCertificateV1, .same, false⟩,
   ⟨"rfc5652.AttributeValue", Verif.Rfc5652.AttributeValue, AttributeValue, .same, false⟩,
   ⟨"rfc5652.Attribute", Verif.Rfc5652.Attribute, Attribute, .same, false⟩,
   ⟨"rfc5652.SignedAttributes", Verif.Rfc5652.SignedAttributes, SignedAttributes, .same, false⟩,
   ⟨"rfc5652.AttributeCertificateV2", Verif.Rfc5652.AttributeCertificateV2, AttributeCertificateV2, .same, false⟩,
   ⟨"rfc5652.OtherKeyAttribute", Verif.Rfc5652.OtherKeyAttribute, OtherKeyAttribute, .same, false⟩,
   ⟨"rfc5652.UnauthAttributes", Verif.Rfc5652.UnauthAttributes, UnauthAttributes, .same, false⟩,
   ⟨"rfc5652.SignatureValue", Verif.Rfc5652.SignatureValue, SignatureValue, .same, false⟩,
   ⟨"rfc5652.IssuerAndSerialNumber", Verif.Rfc5652.IssuerAndSerialNumber, IssuerAndSerialNumber, .same, false⟩,
   ⟨"rfc5652.SubjectKeyIdentifier", Verif.Rfc5652.SubjectKeyIdentifier, SubjectKeyIdentifier, .same, false⟩,
   ⟨"rfc5652.RecipientKeyIdentifier", Verif.Rfc5652.RecipientKeyIdentifier, RecipientKeyIdentifier, .same, false⟩,
   ⟨"rfc5652.KeyAgreeRecipientIdentifier", Verif.Rfc5652.KeyAgreeRecipientIdentifier, KeyAgreeRecipientIdentifier, .same, false⟩,
   ⟨"rfc5652.EncryptedKey", Verif.Rfc5652.EncryptedKey, EncryptedKey, .same, false⟩,
   ⟨"rfc5652.RecipientEncryptedKey", Verif.Rfc5652.RecipientEncryptedKey, RecipientEncryptedKey, .same, false⟩,
   ⟨"rfc5652.RecipientEncryptedKeys", Verif.Rfc5652.RecipientEncryptedKeys, RecipientEncryptedKeys, .same, false⟩,
   ⟨"rfc5652.MessageAuthenticationCode", Verif.Rfc5652.MessageAuthenticationCode, MessageAuthenticationCode, .same, false⟩,
   ⟨"rfc5652.CMSVersion", Verif.Rfc5652.CMSVersion, CMSVersion, .same, false⟩,
   ⟨"rfc5652.OtherCertificateFormat", Verif.Rfc5652.OtherCertificateFormat, OtherCertificateFormat, .same, false⟩,
   ⟨"rfc5652.ExtendedCertificateInfo", Verif.Rfc5652.ExtendedCertificateInfo, ExtendedCertificateInfo, .same, false⟩,
   ⟨"rfc5652.Signature", Verif.Rfc5652.Signature, Signature, .same, false⟩,
   ⟨"rfc5652.SignatureAlgorithmIdentifier", Verif.Rfc5652.SignatureAlgorithmIdentifier, SignatureAlgorithmIdentifier, .same, false⟩,
   ⟨"rfc5652.ExtendedCertificate", Verif.Rfc5652.ExtendedCertificate, ExtendedCertificate, .same, false⟩,
   ⟨"rfc5652.CertificateChoices", Verif.Rfc5652.CertificateChoices, CertificateChoices, .same, false⟩,
   ⟨"rfc5652.CertificateSet", Verif.Rfc5652.CertificateSet, CertificateSet, .same, false⟩,
   ⟨"rfc5652.OtherRevocationInfoFormat", Verif.Rfc5652.OtherRevocationInfoFormat, OtherRevocationInfoFormat, .same, false⟩,
   ⟨"rfc5652.RevocationInfoChoice", Verif.Rfc5652.RevocationInfoChoice, RevocationInfoChoice, .same, false⟩,
   ⟨"rfc5652.RevocationInfoChoices", Verif.Rfc5652.RevocationInfoChoices, RevocationInfoChoices, .same, false⟩,
   ⟨"rfc5652.OriginatorInfo", Verif.Rfc5652.OriginatorInfo, OriginatorInfo, .same, false⟩,
   ⟨"rfc5652.ContentType", Verif.Rfc5652.ContentType, ContentType, .same, false⟩,
   ⟨"rfc5652.EncryptedContent", Verif.Rfc5652.EncryptedContent, EncryptedContent, .same, false⟩,
   ⟨"rfc5652.ContentEncryptionAlgorithmIdentifier", Verif.Rfc5652.ContentEncryptionAlgorithmIdentifier, ContentEncryptionAlgorithmIdentifier, .same, false⟩,
   ⟨"rfc5652.EncryptedContentInfo", Verif.Rfc5652.EncryptedContentInfo, EncryptedContentInfo, .same, false⟩,
   ⟨"rfc5652.UnprotectedAttributes", Verif.Rfc5652.UnprotectedAttributes, UnprotectedAttributes, .same, false⟩,
   ⟨"rfc5652.KeyEncryptionAlgorithmIdentifier", Verif.Rfc5652.KeyEncryptionAlgorithmIdentifier, KeyEncryptionAlgorithmIdentifier, .same, false⟩,
   ⟨"rfc5652.KEKIdentifier", Verif.Rfc5652.KEKIdentifier, KEKIdentifier, .same, false⟩,
   ⟨"rfc5652.KEKRecipientInfo", Verif.Rfc5652.KEKRecipientInfo, KEKRecipientInfo, .same, false⟩,
   ⟨"rfc5652.KeyDerivationAlgorithmIdentifier", Verif.Rfc5652.KeyDerivationAlgorithmIdentifier, KeyDerivationAlgorithmIdentifier, .same, false⟩,
   ⟨"rfc5652.PasswordRecipientInfo", Verif.Rfc5652.PasswordRecipientInfo, PasswordRecipientInfo, .same, false⟩,
   ⟨"rfc5652.RecipientIdentifier", Verif.Rfc5652.RecipientIdentifier, RecipientIdentifier, .same, false⟩,
   ⟨"rfc5652.KeyTransRecipientInfo", Verif.Rfc5652.KeyTransRecipientInfo, KeyTransRecipientInfo, .same, false⟩,
   ⟨"rfc5652.UserKeyingMaterial", Verif.Rfc5652.UserKeyingMaterial, UserKeyingMaterial, .same, false⟩,
   ⟨"rfc5652.OriginatorPublicKey", Verif.Rfc5652.OriginatorPublicKey, OriginatorPublicKey, .same, false⟩,
   ⟨"rfc5652.OriginatorIdentifierOrKey", Verif.Rfc5652.OriginatorIdentifierOrKey, OriginatorIdentifierOrKey, .same, false⟩,
   ⟨"rfc5652.KeyAgreeRecipientInfo", Verif.Rfc5652.KeyAgreeRecipientInfo, KeyAgreeRecipientInfo, .same, false⟩,
   ⟨"rfc5652.OtherRecipientInfo", Verif.Rfc5652.OtherRecipientInfo, OtherRecipientInfo, .same, false⟩,
   ⟨"rfc5652.RecipientInfo", Verif.Rfc5652.RecipientInfo, RecipientInfo, .same, false⟩,
   ⟨"rfc5652.RecipientInfos", Verif.Rfc5652.RecipientInfos, RecipientInfos, .same, false⟩,
   ⟨"rfc5652.EnvelopedData", Verif.Rfc5652.EnvelopedData, EnvelopedData, .same, false⟩,
   ⟨"rfc5652.DigestAlgorithmIdentifier", Verif.Rfc5652.DigestAlgorithmIdentifier, DigestAlgorithmIdentifier, .same, false⟩,
   ⟨"rfc5652.EncryptedData", Verif.Rfc5652.EncryptedData, EncryptedData, .same, false⟩,
   ⟨"rfc5652.MessageAuthenticationCodeAlgorithm", Verif.Rfc5652.MessageAuthenticationCodeAlgorithm, MessageAuthenticationCodeAlgorithm, .same, false⟩,
   ⟨"rfc5652.UnsignedAttributes", Verif.Rfc5652.UnsignedAttributes, UnsignedAttributes, .same, false⟩,
   ⟨"rfc5652.SignerIdentifier", Verif.Rfc5652.SignerIdentifier, SignerIdentifier, .same, false⟩,
   ⟨"rfc5652.SignerInfo", Verif.Rfc5652.SignerInfo, SignerInfo, .same, false⟩,
   ⟨"rfc5652.SignerInfos", Verif.Rfc5652.SignerInfos, SignerInfos, .same, false⟩,
   ⟨"rfc5652.Countersignature", Verif.Rfc5652.Countersignature, Countersignature, .same, false⟩,
   ⟨"rfc5652.ContentInfo", Verif.Rfc5652.ContentInfo, ContentInfo, .same, false⟩,
   ⟨"rfc5652.EncapsulatedContentInfo", Verif.Rfc5652.EncapsulatedContentInfo, EncapsulatedContentInfo, .same, false⟩,
   ⟨"rfc5652.MessageDigest", Verif.Rfc5652.MessageDigest, MessageDigest, .same, false⟩,
   ⟨"rfc5652.AuthAttributes", Verif.Rfc5652.AuthAttributes, AuthAttributes, .same, false⟩,
   ⟨"rfc5652.Time", Verif.Rfc5652.Time, Time, .same, false⟩,
   ⟨"rfc5652.AuthenticatedData", Verif.Rfc5652.AuthenticatedData, AuthenticatedData, .same, false⟩,
   ⟨"rfc5652.ExtendedCertificateOrCertificate", Verif.Rfc5652.ExtendedCertificateOrCertificate, ExtendedCertificateOrCertificate, .same, false⟩,
   ⟨"rfc5652.Digest", Verif.Rfc5652.Digest, Digest, .same, false⟩,
   ⟨"rfc5652.DigestedData", Verif.Rfc5652.DigestedData, DigestedData, .same, false⟩,
   ⟨"rfc5652.DigestAlgorithmIdentifiers", Verif.Rfc5652.DigestAlgorithmIdentifiers, DigestAlgorithmIdentifiers, .same, false⟩,
   ⟨"rfc5652.SignedData", Verif.Rfc5652.SignedData, SignedData, .same, false⟩,
   ⟨"rfc5652.SigningTime", Verif.Rfc5652.SigningTime, SigningTime, .same, false⟩]

/-- Classes of rfc5652.py the transcription of the standard has no type for. -/
def beyond : List String :=
  []

/-- Constants of rfc5652.py and the values the standard gives them. -/
def constants : List Constant :=
  [⟨"rfc5652.id_encryptedData", Verif.Rfc5652.id_encryptedData, OBJECT_IDENTIFIER, .oid [1, 2, 840, 113549, 1, 7, 6], true⟩,
   ⟨"rfc5652.id_ct_contentInfo", Verif.Rfc5652.id_ct_contentInfo, OBJECT_IDENTIFIER, .oid [1, 2, 840, 113549, 1, 9, 16, 1, 6], true⟩,
   ⟨"rfc5652.id_digestedData", Verif.Rfc5652.id_digestedData, OBJECT_IDENTIFIER, .oid [1, 2, 840, 113549, 1, 7, 5], true⟩,
   ⟨"rfc5652.id_messageDigest", Verif.Rfc5652.id_messageDigest, OBJECT_IDENTIFIER, .oid [1, 2, 840, 113549, 1, 9, 4], true⟩,
   ⟨"rfc5652.id_signedData", Verif.Rfc5652.id_signedData, OBJECT_IDENTIFIER, .oid [1, 2, 840, 113549, 1, 7, 2], true⟩,
   ⟨"rfc5652.id_countersignature", Verif.Rfc5652.id_countersignature, OBJECT_IDENTIFIER, .oid [1, 2, 840, 113549, 1, 9, 6], true⟩,
   ⟨"rfc5652.id_data", Verif.Rfc5652.id_data, OBJECT_IDENTIFIER, .oid [1, 2, 840, 113549, 1, 7, 1], true⟩,
   ⟨"rfc5652.id_contentType", Verif.Rfc5652.id_contentType, OBJECT_IDENTIFIER, .oid [1, 2, 840, 113549, 1, 9, 3], true⟩,
   ⟨"rfc5652.id_envelopedData", Verif.Rfc5652.id_envelopedData, OBJECT_IDENTIFIER, .oid [1, 2, 840, 113549, 1, 7, 3], true⟩,
   ⟨"rfc5652.id_signingTime", Verif.Rfc5652.id_signingTime, OBJECT_IDENTIFIER, .oid [1, 2, 840, 113549, 1, 9, 5], true⟩,
   ⟨"rfc5652.id_ct_authData", Verif.Rfc5652.id_ct_authData, OBJECT_IDENTIFIER, .oid [1, 2, 840, 113549, 1, 9, 16, 1, 2], true⟩]

/-- Constants of rfc5652.py the transcription of the standard has no value for. -/
def others : List String :=
  []

def standard : Standard := ⟨Verif.Rfc5652.asModule, entries, beyond, constants, others⟩

end Rfc5652
end Std
end Verif
