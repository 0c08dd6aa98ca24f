import Verif.Spec.Built
import Verif.Std.Rfc3852

/-! What rfc3852.py implements, where that is not the standard (generated by tools/builtgen.py). -/

namespace Verif
namespace Built
namespace Rfc3852

open Asn1 Verif.Std Spec.X680 Spec.Built

def description : Description :=
  ⟨Verif.Rfc3852.asModule,
   [⟨"rfc3852.AttributeValue", Verif.Rfc3852.AttributeValue, Std.Rfc3852.AttributeValue⟩,
    ⟨"rfc3852.Attribute", Verif.Rfc3852.Attribute, Std.Rfc3852.Attribute⟩,
    ⟨"rfc3852.SignedAttributes", Verif.Rfc3852.SignedAttributes, Std.Rfc3852.SignedAttributes⟩,
    ⟨"rfc3852.OtherRevocationInfoFormat", Verif.Rfc3852.OtherRevocationInfoFormat, Std.Rfc3852.OtherRevocationInfoFormat⟩,
    ⟨"rfc3852.RevocationInfoChoice", Verif.Rfc3852.RevocationInfoChoice, Std.Rfc3852.RevocationInfoChoice⟩,
    ⟨"rfc3852.RevocationInfoChoices", Verif.Rfc3852.RevocationInfoChoices, Std.Rfc3852.RevocationInfoChoices⟩,
    ⟨"rfc3852.OtherKeyAttribute", Verif.Rfc3852.OtherKeyAttribute, Std.Rfc3852.OtherKeyAttribute⟩,
    ⟨"rfc3852.KeyEncryptionAlgorithmIdentifier", Verif.Rfc3852.KeyEncryptionAlgorithmIdentifier, Std.Rfc3852.KeyEncryptionAlgorithmIdentifier⟩,
    ⟨"rfc3852.EncryptedKey", Verif.Rfc3852.EncryptedKey, Std.Rfc3852.EncryptedKey⟩,
    ⟨"rfc3852.CMSVersion", Verif.Rfc3852.CMSVersion, Std.Rfc3852.CMSVersion⟩,
    ⟨"rfc3852.KEKIdentifier", Verif.Rfc3852.KEKIdentifier, Std.Rfc3852.KEKIdentifier⟩,
    ⟨"rfc3852.KEKRecipientInfo", Verif.Rfc3852.KEKRecipientInfo, Std.Rfc3852.KEKRecipientInfo⟩,
    ⟨"rfc3852.KeyDerivationAlgorithmIdentifier", Verif.Rfc3852.KeyDerivationAlgorithmIdentifier, Std.Rfc3852.KeyDerivationAlgorithmIdentifier⟩,
    ⟨"rfc3852.PasswordRecipientInfo", Verif.Rfc3852.PasswordRecipientInfo, Std.Rfc3852.PasswordRecipientInfo⟩,
    ⟨"rfc3852.OtherRecipientInfo", Verif.Rfc3852.OtherRecipientInfo, Std.Rfc3852.OtherRecipientInfo⟩,
    ⟨"rfc3852.IssuerAndSerialNumber", Verif.Rfc3852.IssuerAndSerialNumber, Std.Rfc3852.IssuerAndSerialNumber⟩,
    ⟨"rfc3852.SubjectKeyIdentifier", Verif.Rfc3852.SubjectKeyIdentifier, Std.Rfc3852.SubjectKeyIdentifier⟩,
    ⟨"rfc3852.RecipientKeyIdentifier", Verif.Rfc3852.RecipientKeyIdentifier, Std.Rfc3852.RecipientKeyIdentifier⟩,
    ⟨"rfc3852.KeyAgreeRecipientIdentifier", Verif.Rfc3852.KeyAgreeRecipientIdentifier, Std.Rfc3852.KeyAgreeRecipientIdentifier⟩,
    ⟨"rfc3852.RecipientEncryptedKey", Verif.Rfc3852.RecipientEncryptedKey, Std.Rfc3852.RecipientEncryptedKey⟩,
    ⟨"rfc3852.RecipientEncryptedKeys", Verif.Rfc3852.RecipientEncryptedKeys, Std.Rfc3852.RecipientEncryptedKeys⟩,
    ⟨"rfc3852.UserKeyingMaterial", Verif.Rfc3852.UserKeyingMaterial, Std.Rfc3852.UserKeyingMaterial⟩,
    ⟨"rfc3852.OriginatorPublicKey", Verif.Rfc3852.OriginatorPublicKey, Std.Rfc3852.OriginatorPublicKey⟩,
    ⟨"rfc3852.OriginatorIdentifierOrKey", Verif.Rfc3852.OriginatorIdentifierOrKey, Std.Rfc3852.OriginatorIdentifierOrKey⟩,
    ⟨"rfc3852.KeyAgreeRecipientInfo", Verif.Rfc3852.KeyAgreeRecipientInfo, Std.Rfc3852.KeyAgreeRecipientInfo⟩,
    ⟨"rfc3852.RecipientIdentifier", Verif.Rfc3852.RecipientIdentifier, Std.Rfc3852.RecipientIdentifier⟩,
    ⟨"rfc3852.KeyTransRecipientInfo", Verif.Rfc3852.KeyTransRecipientInfo, Std.Rfc3852.KeyTransRecipientInfo⟩,
    ⟨"rfc3852.RecipientInfo", Verif.Rfc3852.RecipientInfo, Std.Rfc3852.RecipientInfo⟩,
    ⟨"rfc3852.RecipientInfos", Verif.Rfc3852.RecipientInfos, Std.Rfc3852.RecipientInfos⟩,
    ⟨"rfc3852.DigestAlgorithmIdentifier", Verif.Rfc3852.DigestAlgorithmIdentifier, Std.Rfc3852.DigestAlgorithmIdentifier⟩,
    ⟨"rfc3852.Signature", Verif.Rfc3852.Signature, Std.Rfc3852.Signature⟩,
    ⟨"rfc3852.SignerIdentifier", Verif.Rfc3852.SignerIdentifier, Std.Rfc3852.SignerIdentifier⟩,
    ⟨"rfc3852.UnprotectedAttributes", Verif.Rfc3852.UnprotectedAttributes, Std.Rfc3852.UnprotectedAttributes⟩,
    ⟨"rfc3852.ContentType", Verif.Rfc3852.ContentType, Std.Rfc3852.ContentType⟩,
    ⟨"rfc3852.EncryptedContent", Verif.Rfc3852.EncryptedContent, Std.Rfc3852.EncryptedContent⟩,
    ⟨"rfc3852.ContentEncryptionAlgorithmIdentifier", Verif.Rfc3852.ContentEncryptionAlgorithmIdentifier, Std.Rfc3852.ContentEncryptionAlgorithmIdentifier⟩,
    ⟨"rfc3852.EncryptedContentInfo", Verif.Rfc3852.EncryptedContentInfo, Std.Rfc3852.EncryptedContentInfo⟩,
    ⟨"rfc3852.EncryptedData", Verif.Rfc3852.EncryptedData, Std.Rfc3852.EncryptedData⟩,
    ⟨"rfc3852.DigestAlgorithmIdentifiers", Verif.Rfc3852.DigestAlgorithmIdentifiers, Std.Rfc3852.DigestAlgorithmIdentifiers⟩,
    ⟨"rfc3852.EncapsulatedContentInfo", Verif.Rfc3852.EncapsulatedContentInfo, Std.Rfc3852.EncapsulatedContentInfo⟩,
    ⟨"rfc3852.Digest", Verif.Rfc3852.Digest, Std.Rfc3852.Digest⟩,
    ⟨"rfc3852.DigestedData", Verif.Rfc3852.DigestedData, Std.Rfc3852.DigestedData⟩,
    ⟨"rfc3852.ContentInfo", Verif.Rfc3852.ContentInfo, Std.Rfc3852.ContentInfo⟩,
    ⟨"rfc3852.UnauthAttributes", Verif.Rfc3852.UnauthAttributes, Std.Rfc3852.UnauthAttributes⟩,
    ⟨"rfc3852.ExtendedCertificateInfo", Verif.Rfc3852.ExtendedCertificateInfo, Std.Rfc3852.ExtendedCertificateInfo⟩,
    ⟨"rfc3852.SignatureAlgorithmIdentifier", Verif.Rfc3852.SignatureAlgorithmIdentifier, Std.Rfc3852.SignatureAlgorithmIdentifier⟩,
    ⟨"rfc3852.ExtendedCertificate", Verif.Rfc3852.ExtendedCertificate, Std.Rfc3852.ExtendedCertificate⟩,
    ⟨"rfc3852.OtherCertificateFormat", Verif.Rfc3852.OtherCertificateFormat, Std.Rfc3852.OtherCertificateFormat⟩,
    ⟨"rfc3852.AttributeCertificateV2", Verif.Rfc3852.AttributeCertificateV2, Std.Rfc3852.AttributeCertificateV2⟩,
    ⟨"rfc3852.AttCertVersionV1", Verif.Rfc3852.AttCertVersionV1, Std.Rfc3852.AttCertVersionV1⟩,
    ⟨"rfc3852.AttributeCertificateInfoV1", Verif.Rfc3852.AttributeCertificateInfoV1, Std.Rfc3852.AttributeCertificateInfoV1⟩,
    ⟨"rfc3852.AttributeCertificateV1", Verif.Rfc3852.AttributeCertificateV1, Std.Rfc3852.AttributeCertificateV1⟩,
    ⟨"rfc3852.CertificateChoices", Verif.Rfc3852.CertificateChoices, Std.Rfc3852.CertificateChoices⟩,
    ⟨"rfc3852.CertificateSet", Verif.Rfc3852.CertificateSet, Std.Rfc3852.CertificateSet⟩,
    ⟨"rfc3852.MessageAuthenticationCode", Verif.Rfc3852.MessageAuthenticationCode, Std.Rfc3852.MessageAuthenticationCode⟩,
    ⟨"rfc3852.UnsignedAttributes", Verif.Rfc3852.UnsignedAttributes, Std.Rfc3852.UnsignedAttributes⟩,
    ⟨"rfc3852.SignatureValue", Verif.Rfc3852.SignatureValue, Std.Rfc3852.SignatureValue⟩,
    ⟨"rfc3852.SignerInfo", Verif.Rfc3852.SignerInfo, Std.Rfc3852.SignerInfo⟩,
    ⟨"rfc3852.SignerInfos", Verif.Rfc3852.SignerInfos, Std.Rfc3852.SignerInfos⟩,
    ⟨"rfc3852.SignedData", Verif.Rfc3852.SignedData, Std.Rfc3852.SignedData⟩,
    ⟨"rfc3852.MessageAuthenticationCodeAlgorithm", Verif.Rfc3852.MessageAuthenticationCodeAlgorithm, Std.Rfc3852.MessageAuthenticationCodeAlgorithm⟩,
    ⟨"rfc3852.MessageDigest", Verif.Rfc3852.MessageDigest, Std.Rfc3852.MessageDigest⟩,
    ⟨"rfc3852.Time", Verif.Rfc3852.Time, Std.Rfc3852.Time⟩,
    ⟨"rfc3852.OriginatorInfo", Verif.Rfc3852.OriginatorInfo, Std.Rfc3852.OriginatorInfo⟩,
    ⟨"rfc3852.AuthAttributes", Verif.Rfc3852.AuthAttributes, Std.Rfc3852.AuthAttributes⟩,
    ⟨"rfc3852.AuthenticatedData", Verif.Rfc3852.AuthenticatedData, Std.Rfc3852.AuthenticatedData⟩,
    ⟨"rfc3852.EnvelopedData", Verif.Rfc3852.EnvelopedData, Std.Rfc3852.EnvelopedData⟩,
    ⟨"rfc3852.Countersignature", Verif.Rfc3852.Countersignature, Std.Rfc3852.Countersignature⟩,
    ⟨"rfc3852.ExtendedCertificateOrCertificate", Verif.Rfc3852.ExtendedCertificateOrCertificate, Std.Rfc3852.ExtendedCertificateOrCertificate⟩,
    ⟨"rfc3852.SigningTime", Verif.Rfc3852.SigningTime, Std.Rfc3852.SigningTime⟩]⟩

end Rfc3852
end Built
end Verif
