import Verif.Spec.Grade
import Verif.Gen.Rfc3852
import Verif.Std.Rfc3280
import Verif.Std.Rfc3281

/-! The ASN.1 of tools/std/rfc3852.asn1 (generated by tools/stdgen.py). -/

namespace Verif
namespace Std
namespace Rfc3852

open Asn1 Spec.X680

/-- `ContentType ::=` -/
def ContentType : Ty :=
  OBJECT_IDENTIFIER

/-- `ContentInfo ::=` -/
def ContentInfo : Ty :=
  SEQUENCE [
    mandatory "contentType" ContentType,
    mandatory "content" (explicit .context 0 ANY)]

/-- `CMSVersion ::=` -/
def CMSVersion : Ty :=
  named [("v0", 0), ("v1", 1), ("v2", 2), ("v3", 3), ("v4", 4), ("v5", 5)] INTEGER

/-- `DigestAlgorithmIdentifier ::=` -/
def DigestAlgorithmIdentifier : Ty :=
  Std.Rfc3280.AlgorithmIdentifier

/-- `DigestAlgorithmIdentifiers ::=` -/
def DigestAlgorithmIdentifiers : Ty :=
  SET_OF DigestAlgorithmIdentifier

/-- `EncapsulatedContentInfo ::=` -/
def EncapsulatedContentInfo : Ty :=
  SEQUENCE [
    mandatory "eContentType" ContentType,
    optional "eContent" (explicit .context 0 OCTET_STRING)]

/-- `AttributeValue ::=` -/
def AttributeValue : Ty :=
  ANY

/-- `Attribute ::=` -/
def Attribute : Ty :=
  SEQUENCE [
    mandatory "attrType" OBJECT_IDENTIFIER,
    mandatory "attrValues" (SET_OF AttributeValue)]

/-- `UnauthAttributes ::=` -/
def UnauthAttributes : Ty :=
  constrained (SIZE_MAX 1) (SET_OF Attribute)

/-- `ExtendedCertificateInfo ::=` -/
def ExtendedCertificateInfo : Ty :=
  SEQUENCE [
    mandatory "version" CMSVersion,
    mandatory "certificate" Std.Rfc3280.Certificate,
    mandatory "attributes" UnauthAttributes]

/-- `SignatureAlgorithmIdentifier ::=` -/
def SignatureAlgorithmIdentifier : Ty :=
  Std.Rfc3280.AlgorithmIdentifier

/-- `Signature ::=` -/
def Signature : Ty :=
  BIT_STRING

/-- `ExtendedCertificate ::=` -/
def ExtendedCertificate : Ty :=
  SEQUENCE [
    mandatory "extendedCertificateInfo" ExtendedCertificateInfo,
    mandatory "signatureAlgorithm" SignatureAlgorithmIdentifier,
    mandatory "signature" Signature]

/-- `AttCertVersionV1 ::=` -/
def AttCertVersionV1 : Ty :=
  named [("v1", 0)] INTEGER

/-- `AttributeCertificateInfoV1 ::=` -/
def AttributeCertificateInfoV1 : Ty :=
  SEQUENCE [
    default "version" AttCertVersionV1 (.int 0),
    mandatory "subject" (CHOICE [
      mandatory "baseCertificateID" (explicit .context 0 Std.Rfc3281.IssuerSerial),
      mandatory "subjectName" (explicit .context 1 Std.Rfc3280.GeneralNames)]),
    mandatory "issuer" Std.Rfc3280.GeneralNames,
    mandatory "signature" Std.Rfc3280.AlgorithmIdentifier,
    mandatory "serialNumber" Std.Rfc3280.CertificateSerialNumber,
    mandatory "attCertValidityPeriod" Std.Rfc3281.AttCertValidityPeriod,
    mandatory "attributes" (SEQUENCE_OF Std.Rfc3280.Attribute),
    optional "issuerUniqueID" Std.Rfc3280.UniqueIdentifier,
    optional "extensions" Std.Rfc3280.Extensions]

/-- `AttributeCertificateV1 ::=` -/
def AttributeCertificateV1 : Ty :=
  SEQUENCE [
    mandatory "acInfo" AttributeCertificateInfoV1,
    mandatory "signatureAlgorithm" Std.Rfc3280.AlgorithmIdentifier,
    mandatory "signature" BIT_STRING]

/-- `AttributeCertificateV2 ::=` -/
def AttributeCertificateV2 : Ty :=
  Std.Rfc3281.AttributeCertificate

/-- `OtherCertificateFormat ::=` -/
def OtherCertificateFormat : Ty :=
  SEQUENCE [
    mandatory "otherCertFormat" OBJECT_IDENTIFIER,
    mandatory "otherCert" ANY]

/-- `CertificateChoices ::=` -/
def CertificateChoices : Ty :=
  CHOICE [
    mandatory "certificate" Std.Rfc3280.Certificate,
    mandatory "extendedCertificate" (implicit .context 0 ExtendedCertificate),
    mandatory "v1AttrCert" (implicit .context 1 AttributeCertificateV1),
    mandatory "v2AttrCert" (implicit .context 2 AttributeCertificateV2),
    mandatory "other" (implicit .context 3 OtherCertificateFormat)]

/-- `CertificateSet ::=` -/
def CertificateSet : Ty :=
  SET_OF CertificateChoices

/-- `OtherRevocationInfoFormat ::=` -/
def OtherRevocationInfoFormat : Ty :=
  SEQUENCE [
    mandatory "otherRevInfoFormat" OBJECT_IDENTIFIER,
    mandatory "otherRevInfo" ANY]

/-- `RevocationInfoChoice ::=` -/
def RevocationInfoChoice : Ty :=
  CHOICE [
    mandatory "crl" Std.Rfc3280.CertificateList,
    mandatory "other" (implicit .context 1 OtherRevocationInfoFormat)]

/-- `RevocationInfoChoices ::=` -/
def RevocationInfoChoices : Ty :=
  SET_OF RevocationInfoChoice

/-- `IssuerAndSerialNumber ::=` -/
def IssuerAndSerialNumber : Ty :=
  SEQUENCE [
    mandatory "issuer" Std.Rfc3280.Name,
    mandatory "serialNumber" Std.Rfc3280.CertificateSerialNumber]

/-- `SubjectKeyIdentifier ::=` -/
def SubjectKeyIdentifier : Ty :=
  OCTET_STRING

/-- `SignerIdentifier ::=` -/
def SignerIdentifier : Ty :=
  CHOICE [
    mandatory "issuerAndSerialNumber" IssuerAndSerialNumber,
    mandatory "subjectKeyIdentifier" (implicit .context 0 SubjectKeyIdentifier)]

/-- `SignedAttributes ::=` -/
def SignedAttributes : Ty :=
  constrained (SIZE_MAX 1) (SET_OF Attribute)

/-- `SignatureValue ::=` -/
def SignatureValue : Ty :=
  OCTET_STRING

/-- `UnsignedAttributes ::=` -/
def UnsignedAttributes : Ty :=
  constrained (SIZE_MAX 1) (SET_OF Attribute)

/-- `SignerInfo ::=` -/
def SignerInfo : Ty :=
  SEQUENCE [
    mandatory "version" CMSVersion,
    mandatory "sid" SignerIdentifier,
    mandatory "digestAlgorithm" DigestAlgorithmIdentifier,
    optional "signedAttrs" (implicit .context 0 SignedAttributes),
    mandatory "signatureAlgorithm" SignatureAlgorithmIdentifier,
    mandatory "signature" SignatureValue,
    optional "unsignedAttrs" (implicit .context 1 UnsignedAttributes)]

/-- `SignerInfos ::=` -/
def SignerInfos : Ty :=
  SET_OF SignerInfo

/-- `SignedData ::=` -/
def SignedData : Ty :=
  SEQUENCE [
    mandatory "version" CMSVersion,
    mandatory "digestAlgorithms" DigestAlgorithmIdentifiers,
    mandatory "encapContentInfo" EncapsulatedContentInfo,
    optional "certificates" (implicit .context 0 CertificateSet),
    optional "crls" (implicit .context 1 RevocationInfoChoices),
    mandatory "signerInfos" SignerInfos]

/-- `OriginatorInfo ::=` -/
def OriginatorInfo : Ty :=
  SEQUENCE [
    optional "certs" (implicit .context 0 CertificateSet),
    optional "crls" (implicit .context 1 RevocationInfoChoices)]

/-- `RecipientIdentifier ::=` -/
def RecipientIdentifier : Ty :=
  CHOICE [
    mandatory "issuerAndSerialNumber" IssuerAndSerialNumber,
    mandatory "subjectKeyIdentifier" (implicit .context 0 SubjectKeyIdentifier)]

/-- `KeyEncryptionAlgorithmIdentifier ::=` -/
def KeyEncryptionAlgorithmIdentifier : Ty :=
  Std.Rfc3280.AlgorithmIdentifier

/-- `EncryptedKey ::=` -/
def EncryptedKey : Ty :=
  OCTET_STRING

/-- `KeyTransRecipientInfo ::=` -/
def KeyTransRecipientInfo : Ty :=
  SEQUENCE [
    mandatory "version" CMSVersion,
    mandatory "rid" RecipientIdentifier,
    mandatory "keyEncryptionAlgorithm" KeyEncryptionAlgorithmIdentifier,
    mandatory "encryptedKey" EncryptedKey]

/-- `OriginatorPublicKey ::=` -/
def OriginatorPublicKey : Ty :=
  SEQUENCE [
    mandatory "algorithm" Std.Rfc3280.AlgorithmIdentifier,
    mandatory "publicKey" BIT_STRING]

/-- `OriginatorIdentifierOrKey ::=` -/
def OriginatorIdentifierOrKey : Ty :=
  CHOICE [
    mandatory "issuerAndSerialNumber" IssuerAndSerialNumber,
    mandatory "subjectKeyIdentifier" (implicit .context 0 SubjectKeyIdentifier),
    mandatory "originatorKey" (implicit .context 1 OriginatorPublicKey)]

/-- `UserKeyingMaterial ::=` -/
def UserKeyingMaterial : Ty :=
  OCTET_STRING

/-- `OtherKeyAttribute ::=` -/
def OtherKeyAttribute : Ty :=
  SEQUENCE [
    mandatory "keyAttrId" OBJECT_IDENTIFIER,
    optional "keyAttr" ANY]

/-- `RecipientKeyIdentifier ::=` -/
def RecipientKeyIdentifier : Ty :=
  SEQUENCE [
    mandatory "subjectKeyIdentifier" SubjectKeyIdentifier,
    optional "date" GeneralizedTime,
    optional "other" OtherKeyAttribute]

/-- `KeyAgreeRecipientIdentifier ::=` -/
def KeyAgreeRecipientIdentifier : Ty :=
  CHOICE [
    mandatory "issuerAndSerialNumber" IssuerAndSerialNumber,
    mandatory "rKeyId" (implicit .context 0 RecipientKeyIdentifier)]

/-- `RecipientEncryptedKey ::=` -/
def RecipientEncryptedKey : Ty :=
  SEQUENCE [
    mandatory "rid" KeyAgreeRecipientIdentifier,
    mandatory "encryptedKey" EncryptedKey]

/-- `RecipientEncryptedKeys ::=` -/
def RecipientEncryptedKeys : Ty :=
  SEQUENCE_OF RecipientEncryptedKey

/-- `KeyAgreeRecipientInfo ::=` -/
def KeyAgreeRecipientInfo : Ty :=
  SEQUENCE [
    mandatory "version" CMSVersion,
    mandatory "originator" (explicit .context 0 OriginatorIdentifierOrKey),
    optional "ukm" (explicit .context 1 UserKeyingMaterial),
    mandatory "keyEncryptionAlgorithm" KeyEncryptionAlgorithmIdentifier,
    mandatory "recipientEncryptedKeys" RecipientEncryptedKeys]

/-- `KEKIdentifier ::=` -/
def KEKIdentifier : Ty :=
  SEQUENCE [
    mandatory "keyIdentifier" OCTET_STRING,
    optional "date" GeneralizedTime,
    optional "other" OtherKeyAttribute]

/-- `KEKRecipientInfo ::=` -/
def KEKRecipientInfo : Ty :=
  SEQUENCE [
    mandatory "version" CMSVersion,
    mandatory "kekid" KEKIdentifier,
    mandatory "keyEncryptionAlgorithm" KeyEncryptionAlgorithmIdentifier,
    mandatory "encryptedKey" EncryptedKey]

/-- `KeyDerivationAlgorithmIdentifier ::=` -/
def KeyDerivationAlgorithmIdentifier : Ty :=
  Std.Rfc3280.AlgorithmIdentifier

/-- `PasswordRecipientInfo ::=` -/
def PasswordRecipientInfo : Ty :=
  SEQUENCE [
    mandatory "version" CMSVersion,
    optional "keyDerivationAlgorithm" (implicit .context 0 KeyDerivationAlgorithmIdentifier),
    mandatory "keyEncryptionAlgorithm" KeyEncryptionAlgorithmIdentifier,
    mandatory "encryptedKey" EncryptedKey]

/-- `OtherRecipientInfo ::=` -/
def OtherRecipientInfo : Ty :=
  SEQUENCE [
    mandatory "oriType" OBJECT_IDENTIFIER,
    mandatory "oriValue" ANY]

/-- `RecipientInfo ::=` -/
def RecipientInfo : Ty :=
  CHOICE [
    mandatory "ktri" KeyTransRecipientInfo,
    mandatory "kari" (implicit .context 1 KeyAgreeRecipientInfo),
    mandatory "kekri" (implicit .context 2 KEKRecipientInfo),
    mandatory "pwri" (implicit .context 3 PasswordRecipientInfo),
    mandatory "ori" (implicit .context 4 OtherRecipientInfo)]

/-- `RecipientInfos ::=` -/
def RecipientInfos : Ty :=
  constrained (SIZE_MAX 1) (SET_OF RecipientInfo)

/-- `ContentEncryptionAlgorithmIdentifier ::=` -/
def ContentEncryptionAlgorithmIdentifier : Ty :=
  Std.Rfc3280.AlgorithmIdentifier

/-- `EncryptedContent ::=` -/
def EncryptedContent : Ty :=
  OCTET_STRING

/-- `EncryptedContentInfo ::=` -/
def EncryptedContentInfo : Ty :=
  SEQUENCE [
    mandatory "contentType" ContentType,
    mandatory "contentEncryptionAlgorithm" ContentEncryptionAlgorithmIdentifier,
    optional "encryptedContent" (implicit .context 0 EncryptedContent)]

/-- `UnprotectedAttributes ::=` -/
def UnprotectedAttributes : Ty :=
  constrained (SIZE_MAX 1) (SET_OF Attribute)

/-- `EnvelopedData ::=` -/
def EnvelopedData : Ty :=
  SEQUENCE [
    mandatory "version" CMSVersion,
    optional "originatorInfo" (implicit .context 0 OriginatorInfo),
    mandatory "recipientInfos" RecipientInfos,
    mandatory "encryptedContentInfo" EncryptedContentInfo,
    optional "unprotectedAttrs" (implicit .context 1 UnprotectedAttributes)]

/-- `Digest ::=` -/
def Digest : Ty :=
  OCTET_STRING

/-- `DigestedData ::=` -/
def DigestedData : Ty :=
  SEQUENCE [
    mandatory "version" CMSVersion,
    mandatory "digestAlgorithm" DigestAlgorithmIdentifier,
    mandatory "encapContentInfo" EncapsulatedContentInfo,
    mandatory "digest" Digest]

/-- `EncryptedData ::=` -/
def EncryptedData : Ty :=
  SEQUENCE [
    mandatory "version" CMSVersion,
    mandatory "encryptedContentInfo" EncryptedContentInfo,
    optional "unprotectedAttrs" (implicit .context 1 UnprotectedAttributes)]

/-- `MessageAuthenticationCodeAlgorithm ::=` -/
def MessageAuthenticationCodeAlgorithm : Ty :=
  Std.Rfc3280.AlgorithmIdentifier

/-- `AuthAttributes ::=` -/
def AuthAttributes : Ty :=
  constrained (SIZE_MAX 1) (SET_OF Attribute)

/-- `MessageAuthenticationCode ::=` -/
def MessageAuthenticationCode : Ty :=
  OCTET_STRING

/-- `AuthenticatedData ::=` -/
def AuthenticatedData : Ty :=
  SEQUENCE [
    mandatory "version" CMSVersion,
    optional "originatorInfo" (implicit .context 0 OriginatorInfo),
    mandatory "recipientInfos" RecipientInfos,
    mandatory "macAlgorithm" MessageAuthenticationCodeAlgorithm,
    optional "digestAlgorithm" (implicit .context 1 DigestAlgorithmIdentifier),
    mandatory "encapContentInfo" EncapsulatedContentInfo,
    optional "authAttrs" (implicit .context 2 AuthAttributes),
    mandatory "mac" MessageAuthenticationCode,
    optional "unauthAttrs" (implicit .context 3 UnauthAttributes)]

/-- `MessageDigest ::=` -/
def MessageDigest : Ty :=
  OCTET_STRING

/-- `Time ::=` -/
def Time : Ty :=
  CHOICE [
    mandatory "utcTime" UTCTime,
    mandatory "generalTime" GeneralizedTime]

/-- `SigningTime ::=` -/
def SigningTime : Ty :=
  Time

/-- `Countersignature ::=` -/
def Countersignature : Ty :=
  SignerInfo

/-- `ExtendedCertificateOrCertificate ::=` -/
def ExtendedCertificateOrCertificate : Ty :=
  CHOICE [
    mandatory "certificate" Std.Rfc3280.Certificate,
    mandatory "extendedCertificate" (implicit .context 0 ExtendedCertificate)]

/-- Classes of rfc3852.py and the types of the standard they implement. -/
def entries : List Entry :=
  [⟨"rfc3852.AttributeValue", Verif.Rfc3852.AttributeValue, AttributeValue, .same, false⟩,
   ⟨"rfc3852.Attribute", Verif.Rfc3852.Attribute, Attribute, .same, false⟩,
   ⟨"rfc3852.SignedAttributes", Verif.Rfc3852.SignedAttributes, SignedAttributes, .same, false⟩,
   ⟨"rfc3852.OtherRevocationInfoFormat", Verif.Rfc3852.OtherRevocationInfoFormat, OtherRevocationInfoFormat, .same, false⟩,
   ⟨"rfc3852.RevocationInfoChoice", Verif.Rfc3852.RevocationInfoChoice, RevocationInfoChoice, .same, false⟩,
   ⟨"rfc3852.RevocationInfoChoices", Verif.Rfc3852.RevocationInfoChoices, RevocationInfoChoices, .same, false⟩,
   ⟨"rfc3852.OtherKeyAttribute", Verif.Rfc3852.OtherKeyAttribute, OtherKeyAttribute, .same, false⟩,
   ⟨"rfc3852.KeyEncryptionAlgorithmIdentifier", Verif.Rfc3852.KeyEncryptionAlgorithmIdentifier, KeyEncryptionAlgorithmIdentifier, .same, false⟩,
   ⟨"rfc3852.EncryptedKey", Verif.Rfc3852.EncryptedKey, EncryptedKey, .same, false⟩,
   ⟨"rfc3852.CMSVersion", Verif.Rfc3852.CMSVersion, CMSVersion, .same, false⟩,
   ⟨"rfc3852.KEKIdentifier", Verif.Rfc3852.KEKIdentifier, KEKIdentifier, .same, false⟩,
   ⟨"rfc3852.KEKRecipientInfo", Verif.Rfc3852.KEKRecipientInfo, KEKRecipientInfo, .same, false⟩,
   ⟨"rfc3852.KeyDerivationAlgorithmIdentifier", Verif.Rfc3852.KeyDerivationAlgorithmIdentifier, KeyDerivationAlgorithmIdentifier, .same, false⟩,
   ⟨"rfc3852.PasswordRecipientInfo", Verif.Rfc3852.PasswordRecipientInfo, PasswordRecipientInfo, .same, false⟩,
   ⟨"rfc3852.OtherRecipientInfo", Verif.Rfc3852.OtherRecipientInfo, OtherRecipientInfo, .same, false⟩,
   ⟨"rfc3852.IssuerAndSerialNumber", Verif.Rfc3852.IssuerAndSerialNumber, IssuerAndSerialNumber, .same, false⟩,
   ⟨"rfc3852.SubjectKeyIdentifier", Verif.Rfc3852.SubjectKeyIdentifier, SubjectKeyIdentifier, .same, false⟩,
   ⟨"rfc3852.RecipientKeyIdentifier", Verif.Rfc3852.RecipientKeyIdentifier, RecipientKeyIdentifier, .same, false⟩,
   ⟨"rfc3852.KeyAgreeRecipientIdentifier", Verif.Rfc3852.KeyAgreeRecipientIdentifier, KeyAgreeRecipientIdentifier, .same, false⟩,
   ⟨"rfc3852.RecipientEncryptedKey", Verif.Rfc3852.RecipientEncryptedKey, RecipientEncryptedKey, .same, false⟩,
   ⟨"rfc3852.RecipientEncryptedKeys", Verif.Rfc3852.RecipientEncryptedKeys, RecipientEncryptedKeys, .same, false⟩,
   ⟨"rfc3852.UserKeyingMaterial", Verif.Rfc3852.UserKeyingMaterial, UserKeyingMaterial, .same, false⟩,
   ⟨"rfc3852.OriginatorPublicKey", Verif.Rfc3852.OriginatorPublicKey, OriginatorPublicKey, .same, false⟩,
   ⟨"rfc3852.OriginatorIdentifierOrKey", Verif.Rfc3852.OriginatorIdentifierOrKey, OriginatorIdentifierOrKey, .same, false⟩,
   ⟨"rfc3852.KeyAgreeRecipientInfo", Verif.Rfc3852.KeyAgreeRecipientInfo, KeyAgreeRecipientInfo, .same, false⟩,
   ⟨"rfc3852.RecipientIdentifier", Verif.Rfc3852.RecipientIdentifier, RecipientIdentifier, .same, false⟩,
   ⟨"rfc3852.KeyTransRecipientInfo", Verif.Rfc3852.KeyTransRecipientInfo, KeyTransRecipientInfo, .same, false⟩,
   ⟨"rfc3852.RecipientInfo", Verif.Rfc3852.RecipientInfo, RecipientInfo, .same, false⟩,
   ⟨"rfc3852.RecipientInfos", Verif.Rfc3852.RecipientInfos, RecipientInfos, .same, false⟩,
   ⟨"rfc3852.DigestAlgorithmIdentifier", Verif.Rfc3852.DigestAlgorithmIdentifier, DigestAlgorithmIdentifier, .same, false⟩,
   ⟨"rfc3852.Signature", Verif.Rfc3852.Signature, Signature, .same, false⟩,
   ⟨"rfc3852.SignerIdentifier", Verif.Rfc3852.SignerIdentifier, SignerIdentifier, .same, false⟩,
   ⟨"rfc3852.UnprotectedAttributes", Verif.Rfc3852.UnprotectedAttributes, UnprotectedAttributes, .same, false⟩,
   ⟨"rfc3852.ContentType", Verif.Rfc3852.ContentType, ContentType, .same, false⟩,
   ⟨"rfc3852.EncryptedContent", Verif.Rfc3852.EncryptedContent, EncryptedContent, .same, false⟩,
   ⟨"rfc3852.ContentEncryptionAlgorithmIdentifier", Verif.Rfc3852.ContentEncryptionAlgorithmIdentifier, ContentEncryptionAlgorithmIdentifier, .same, false⟩,
   ⟨"rfc3852.EncryptedContentInfo", Verif.Rfc3852.EncryptedContentInfo, EncryptedContentInfo, .same, false⟩,
   ⟨"rfc3852.EncryptedData", Verif.Rfc3852.EncryptedData, EncryptedData, .same, false⟩,
   ⟨"rfc3852.DigestAlgorithmIdentifiers", Verif.Rfc3852.DigestAlgorithmIdentifiers, DigestAlgorithmIdentifiers, .same, false⟩,
   ⟨"rfc3852.EncapsulatedContentInfo", Verif.Rfc3852.EncapsulatedContentInfo, EncapsulatedContentInfo, .same, false⟩,
   ⟨"rfc3852.Digest", Verif.Rfc3852.Digest, Digest, .same, false⟩,
   ⟨"rfc3852.DigestedData", Verif.Rfc3852.DigestedData, DigestedData, .same, false⟩,
   ⟨"rfc3852.ContentInfo", Verif.Rfc3852.ContentInfo, ContentInfo, .same, false⟩,
   ⟨"rfc3852.UnauthAttributes", Verif.Rfc3852.UnauthAttributes, UnauthAttributes, .same, false⟩,
   ⟨"rfc3852.ExtendedCertificateInfo", Verif.Rfc3852.ExtendedCertificateInfo, ExtendedCertificateInfo, .same, false⟩,
   ⟨"rfc3852.SignatureAlgorithmIdentifier", Verif.Rfc3852.SignatureAlgorithmIdentifier, SignatureAlgorithmIdentifier, .same, false⟩,
   ⟨"rfc3852.ExtendedCertificate", Verif.Rfc3852.ExtendedCertificate, ExtendedCertificate, .same, false⟩,
   ⟨"rfc3852.OtherCertificateFormat", Verif.Rfc3852.OtherCertificateFormat, OtherCertificateFormat, .same, false⟩,
   ⟨"rfc3852.AttributeCertificateV2", Verif.Rfc3852.AttributeCertificateV2, AttributeCertificateV2, .same, false⟩,
   ⟨"rfc3852.AttCertVersionV1", Verif.Rfc3852.AttCertVersionV1, AttCertVersionV1, .same, false⟩,
   ⟨"rfc3852.AttributeCertificateInfoV1", Verif.Rfc3852.AttributeCertificateInfoV1, AttributeCertificateInfoV1, .same, false⟩,
   ⟨"rfc3852.AttributeCertificateV1", Verif.Rfc3852.AttributeCertificateV1, AttributeCertificateV1, .same, false⟩,
   ⟨"rfc3852.CertificateChoices", Verif.Rfc3852.CertificateChoices, CertificateChoices, .same, false⟩,
   ⟨"rfc3852.CertificateSet", Verif.Rfc3852.CertificateSet, CertificateSet, .same, false⟩,
   ⟨"rfc3852.MessageAuthenticationCode", Verif.Rfc3852.MessageAuthenticationCode, MessageAuthenticationCode, .same, false⟩,
   ⟨"rfc3852.UnsignedAttributes", Verif.Rfc3852.UnsignedAttributes, UnsignedAttributes, .same, false⟩,
   ⟨"rfc3852.SignatureValue", Verif.Rfc3852.SignatureValue, SignatureValue, .same, false⟩,
   ⟨"rfc3852.SignerInfo", Verif.Rfc3852.SignerInfo, SignerInfo, .same, false⟩,
   ⟨"rfc3852.SignerInfos", Verif.Rfc3852.SignerInfos, SignerInfos, .same, false⟩,
   ⟨"rfc3852.SignedData", Verif.Rfc3852.SignedData, SignedData, .same, false⟩,
   ⟨"rfc3852.MessageAuthenticationCodeAlgorithm", Verif.Rfc3852.MessageAuthenticationCodeAlgorithm, MessageAuthenticationCodeAlgorithm, .same, false⟩,
   ⟨"rfc3852.MessageDigest", Verif.Rfc3852.MessageDigest, MessageDigest, .same, false⟩,
   ⟨"rfc3852.Time", Verif.Rfc3852.Time, Time, .same, false⟩,
   ⟨"rfc3852.OriginatorInfo", Verif.Rfc3852.OriginatorInfo, OriginatorInfo, .same, false⟩,
   ⟨"rfc3852.AuthAttributes", Verif.Rfc3852.AuthAttributes, AuthAttributes, .same, false⟩,
   ⟨"rfc3852.AuthenticatedData", Verif.Rfc3852.AuthenticatedData, AuthenticatedData, .same, false⟩,
   ⟨"rfc3852.EnvelopedData", Verif.Rfc3852.EnvelopedData, EnvelopedData, .same, false⟩,
   ⟨"rfc3852.Countersignature", Verif.Rfc3852.Countersignature, Countersignature, .same, false⟩,
   ⟨"rfc3852.ExtendedCertificateOrCertificate", Verif.Rfc3852.ExtendedCertificateOrCertificate, ExtendedCertificateOrCertificate, .same, false⟩,
   ⟨"rfc3852.SigningTime", Verif.Rfc3852.SigningTime, SigningTime, .same, false⟩]

/-- Classes of rfc3852.py the transcription of the standard has no type for. -/
def beyond : List String :=
  []

/-- Constants of rfc3852.py and the values the standard gives them. -/
def constants : List Constant :=
  [⟨"rfc3852.id_signedData", Verif.Rfc3852.id_signedData, OBJECT_IDENTIFIER, .oid [1, 2, 840, 113549, 1, 7, 2], true⟩,
   ⟨"rfc3852.id_contentType", Verif.Rfc3852.id_contentType, OBJECT_IDENTIFIER, .oid [1, 2, 840, 113549, 1, 9, 3], true⟩,
   ⟨"rfc3852.id_data", Verif.Rfc3852.id_data, OBJECT_IDENTIFIER, .oid [1, 2, 840, 113549, 1, 7, 1], true⟩,
   ⟨"rfc3852.id_messageDigest", Verif.Rfc3852.id_messageDigest, OBJECT_IDENTIFIER, .oid [1, 2, 840, 113549, 1, 9, 4], true⟩,
   ⟨"rfc3852.id_ct_contentInfo", Verif.Rfc3852.id_ct_contentInfo, OBJECT_IDENTIFIER, .oid [1, 2, 840, 113549, 1, 9, 16, 1, 6], true⟩,
   ⟨"rfc3852.id_envelopedData", Verif.Rfc3852.id_envelopedData, OBJECT_IDENTIFIER, .oid [1, 2, 840, 113549, 1, 7, 3], true⟩,
   ⟨"rfc3852.id_digestedData", Verif.Rfc3852.id_digestedData, OBJECT_IDENTIFIER, .oid [1, 2, 840, 113549, 1, 7, 5], true⟩,
   ⟨"rfc3852.id_signingTime", Verif.Rfc3852.id_signingTime, OBJECT_IDENTIFIER, .oid [1, 2, 840, 113549, 1, 9, 5], true⟩,
   ⟨"rfc3852.id_encryptedData", Verif.Rfc3852.id_encryptedData, OBJECT_IDENTIFIER, .oid [1, 2, 840, 113549, 1, 7, 6], true⟩,
   ⟨"rfc3852.id_ct_authData", Verif.Rfc3852.id_ct_authData, OBJECT_IDENTIFIER, .oid [1, 2, 840, 113549, 1, 9, 16, 1, 2], true⟩,
   ⟨"rfc3852.id_countersignature", Verif.Rfc3852.id_countersignature, OBJECT_IDENTIFIER, .oid [1, 2, 840, 113549, 1, 9, 6], true⟩]

/-- Constants of rfc3852.py the transcription of the standard has no value for. -/
def others : List String :=
  []

def standard : Standard := ⟨Verif.Rfc3852.asModule, entries, beyond, constants, others⟩

end Rfc3852
end Std
end Verif
