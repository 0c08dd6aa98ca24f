import Verif.Spec.Built
import Verif.Std.Rfc5652

/-! What rfc5652.py implements, where that is not the standard (generated by tools/builtgen.py). -/

namespace Verif
namespace Built
namespace Rfc5652

open Asn1 Verif.Std Spec.X680 Spec.Built

def description : Description :=
  ⟨Verif.Rfc5652.asModule,
   [⟨"rfc5652.AttCertVersionV1", Verif.Rfc5652.AttCertVersionV1, Std.Rfc5652.AttCertVersionV1⟩,
    ⟨"rfc5652.AttributeCertificateInfoV1", Verif.Rfc5652.AttributeCertificateInfoV1, Std.Rfc5652.AttributeCertificateInfoV1⟩,
    ⟨"rfc5652.AttributeCertificateV1", Verif.Rfc5652.AttributeCertificateV1, Std.Rfc5652.AttributeCertificateV1⟩,
    ⟨"rfc5652.AttributeValue", Verif.Rfc5652.AttributeValue, Std.Rfc5652.AttributeValue⟩,
    ⟨"rfc5652.Attribute", Verif.Rfc5652.Attribute, Std.Rfc5652.Attribute⟩,
    ⟨"rfc5652.SignedAttributes", Verif.Rfc5652.SignedAttributes, Std.Rfc5652.SignedAttributes⟩,
    ⟨"rfc5652.AttributeCertificateV2", Verif.Rfc5652.AttributeCertificateV2, Std.Rfc5652.AttributeCertificateV2⟩,
    ⟨"rfc5652.OtherKeyAttribute", Verif.Rfc5652.OtherKeyAttribute, Std.Rfc5652.OtherKeyAttribute⟩,
    ⟨"rfc5652.UnauthAttributes", Verif.Rfc5652.UnauthAttributes, Std.Rfc5652.UnauthAttributes⟩,
    ⟨"rfc5652.SignatureValue", Verif.Rfc5652.SignatureValue, Std.Rfc5652.SignatureValue⟩,
    ⟨"rfc5652.IssuerAndSerialNumber", Verif.Rfc5652.IssuerAndSerialNumber, Std.Rfc5652.IssuerAndSerialNumber⟩,
    ⟨"rfc5652.SubjectKeyIdentifier", Verif.Rfc5652.SubjectKeyIdentifier, Std.Rfc5652.SubjectKeyIdentifier⟩,
    ⟨"rfc5652.RecipientKeyIdentifier", Verif.Rfc5652.RecipientKeyIdentifier, Std.Rfc5652.RecipientKeyIdentifier⟩,
    ⟨"rfc5652.KeyAgreeRecipientIdentifier", Verif.Rfc5652.KeyAgreeRecipientIdentifier, Std.Rfc5652.KeyAgreeRecipientIdentifier⟩,
    ⟨"rfc5652.EncryptedKey", Verif.Rfc5652.EncryptedKey, Std.Rfc5652.EncryptedKey⟩,
    ⟨"rfc5652.RecipientEncryptedKey", Verif.Rfc5652.RecipientEncryptedKey, Std.Rfc5652.RecipientEncryptedKey⟩,
    ⟨"rfc5652.RecipientEncryptedKeys", Verif.Rfc5652.RecipientEncryptedKeys, Std.Rfc5652.RecipientEncryptedKeys⟩,
    ⟨"rfc5652.MessageAuthenticationCode", Verif.Rfc5652.MessageAuthenticationCode, Std.Rfc5652.MessageAuthenticationCode⟩,
    ⟨"rfc5652.CMSVersion", Verif.Rfc5652.CMSVersion, Std.Rfc5652.CMSVersion⟩,
    ⟨"rfc5652.OtherCertificateFormat", Verif.Rfc5652.OtherCertificateFormat, Std.Rfc5652.OtherCertificateFormat⟩,
    ⟨"rfc5652.ExtendedCertificateInfo", Verif.Rfc5652.ExtendedCertificateInfo, Std.Rfc5652.ExtendedCertificateInfo⟩,
    ⟨"rfc5652.Signature", Verif.Rfc5652.Signature, Std.Rfc5652.Signature⟩,
    ⟨"rfc5652.SignatureAlgorithmIdentifier", Verif.Rfc5652.SignatureAlgorithmIdentifier, Std.Rfc5652.SignatureAlgorithmIdentifier⟩,
    ⟨"rfc5652.ExtendedCertificate", Verif.Rfc5652.ExtendedCertificate, Std.Rfc5652.ExtendedCertificate⟩,
    ⟨"rfc5652.CertificateChoices", Verif.Rfc5652.CertificateChoices, Std.Rfc5652.CertificateChoices⟩,
    ⟨"rfc5652.CertificateSet", Verif.Rfc5652.CertificateSet, Std.Rfc5652.CertificateSet⟩,
    ⟨"rfc5652.OtherRevocationInfoFormat", Verif.Rfc5652.OtherRevocationInfoFormat, Std.Rfc5652.OtherRevocationInfoFormat⟩,
    ⟨"rfc5652.RevocationInfoChoice", Verif.Rfc5652.RevocationInfoChoice, Std.Rfc5652.RevocationInfoChoice⟩,
    ⟨"rfc5652.RevocationInfoChoices", Verif.Rfc5652.RevocationInfoChoices, Std.Rfc5652.RevocationInfoChoices⟩,
    ⟨"rfc5652.OriginatorInfo", Verif.Rfc5652.OriginatorInfo, Std.Rfc5652.OriginatorInfo⟩,
    ⟨"rfc5652.ContentType", Verif.Rfc5652.ContentType, Std.Rfc5652.ContentType⟩,
    ⟨"rfc5652.EncryptedContent", Verif.Rfc5652.EncryptedContent, Std.Rfc5652.EncryptedContent⟩,
    ⟨"rfc5652.ContentEncryptionAlgorithmIdentifier", Verif.Rfc5652.ContentEncryptionAlgorithmIdentifier, Std.Rfc5652.ContentEncryptionAlgorithmIdentifier⟩,
    ⟨"rfc5652.EncryptedContentInfo", Verif.Rfc5652.EncryptedContentInfo, Std.Rfc5652.EncryptedContentInfo⟩,
    ⟨"rfc5652.UnprotectedAttributes", Verif.Rfc5652.UnprotectedAttributes, Std.Rfc5652.UnprotectedAttributes⟩,
    ⟨"rfc5652.KeyEncryptionAlgorithmIdentifier", Verif.Rfc5652.KeyEncryptionAlgorithmIdentifier, Std.Rfc5652.KeyEncryptionAlgorithmIdentifier⟩,
    ⟨"rfc5652.KEKIdentifier", Verif.Rfc5652.KEKIdentifier, Std.Rfc5652.KEKIdentifier⟩,
    ⟨"rfc5652.KEKRecipientInfo", Verif.Rfc5652.KEKRecipientInfo, Std.Rfc5652.KEKRecipientInfo⟩,
    ⟨"rfc5652.KeyDerivationAlgorithmIdentifier", Verif.Rfc5652.KeyDerivationAlgorithmIdentifier, Std.Rfc5652.KeyDerivationAlgorithmIdentifier⟩,
    ⟨"rfc5652.PasswordRecipientInfo", Verif.Rfc5652.PasswordRecipientInfo, Std.Rfc5652.PasswordRecipientInfo⟩,
    ⟨"rfc5652.RecipientIdentifier", Verif.Rfc5652.RecipientIdentifier, Std.Rfc5652.RecipientIdentifier⟩,
    ⟨"rfc5652.KeyTransRecipientInfo", Verif.Rfc5652.KeyTransRecipientInfo, Std.Rfc5652.KeyTransRecipientInfo⟩,
    ⟨"rfc5652.UserKeyingMaterial", Verif.Rfc5652.UserKeyingMaterial, Std.Rfc5652.UserKeyingMaterial⟩,
    ⟨"rfc5652.OriginatorPublicKey", Verif.Rfc5652.OriginatorPublicKey, Std.Rfc5652.OriginatorPublicKey⟩,
    ⟨"rfc5652.OriginatorIdentifierOrKey", Verif.Rfc5652.OriginatorIdentifierOrKey, Std.Rfc5652.OriginatorIdentifierOrKey⟩,
    ⟨"rfc5652.KeyAgreeRecipientInfo", Verif.Rfc5652.KeyAgreeRecipientInfo, Std.Rfc5652.KeyAgreeRecipientInfo⟩,
    ⟨"rfc5652.OtherRecipientInfo", Verif.Rfc5652.OtherRecipientInfo, Std.Rfc5652.OtherRecipientInfo⟩,
    ⟨"rfc5652.RecipientInfo", Verif.Rfc5652.RecipientInfo, Std.Rfc5652.RecipientInfo⟩,
    ⟨"rfc5652.RecipientInfos", Verif.Rfc5652.RecipientInfos, Std.Rfc5652.RecipientInfos⟩,
    ⟨"rfc5652.EnvelopedData", Verif.Rfc5652.EnvelopedData, Std.Rfc5652.EnvelopedData⟩,
    ⟨"rfc5652.DigestAlgorithmIdentifier", Verif.Rfc5652.DigestAlgorithmIdentifier, Std.Rfc5652.DigestAlgorithmIdentifier⟩,
    ⟨"rfc5652.EncryptedData", Verif.Rfc5652.EncryptedData, Std.Rfc5652.EncryptedData⟩,
    ⟨"rfc5652.MessageAuthenticationCodeAlgorithm", Verif.Rfc5652.MessageAuthenticationCodeAlgorithm, Std.Rfc5652.MessageAuthenticationCodeAlgorithm⟩,
    ⟨"rfc5652.UnsignedAttributes", Verif.Rfc5652.UnsignedAttributes, Std.Rfc5652.UnsignedAttributes⟩,
    ⟨"rfc5652.SignerIdentifier", Verif.Rfc5652.SignerIdentifier, Std.Rfc5652.SignerIdentifier⟩,
    ⟨"rfc5652.SignerInfo", Verif.Rfc5652.SignerInfo, Std.Rfc5652.SignerInfo⟩,
    ⟨"rfc5652.SignerInfos", Verif.Rfc5652.SignerInfos, Std.Rfc5652.SignerInfos⟩,
    ⟨"rfc5652.Countersignature", Verif.Rfc5652.Countersignature, Std.Rfc5652.Countersignature⟩,
    ⟨"rfc5652.ContentInfo", Verif.Rfc5652.ContentInfo, Std.Rfc5652.ContentInfo⟩,
    ⟨"rfc5652.EncapsulatedContentInfo", Verif.Rfc5652.EncapsulatedContentInfo, Std.Rfc5652.EncapsulatedContentInfo⟩,
    ⟨"rfc5652.MessageDigest", Verif.Rfc5652.MessageDigest, Std.Rfc5652.MessageDigest⟩,
    ⟨"rfc5652.AuthAttributes", Verif.Rfc5652.AuthAttributes, Std.Rfc5652.AuthAttributes⟩,
    ⟨"rfc5652.Time", Verif.Rfc5652.Time, Std.Rfc5652.Time⟩,
    ⟨"rfc5652.AuthenticatedData", Verif.Rfc5652.AuthenticatedData, Std.Rfc5652.AuthenticatedData⟩,
    ⟨"rfc5652.ExtendedCertificateOrCertificate", Verif.Rfc5652.ExtendedCertificateOrCertificate, Std.Rfc5652.ExtendedCertificateOrCertificate⟩,
    ⟨"rfc5652.Digest", Verif.Rfc5652.Digest, Std.Rfc5652.Digest⟩,
    ⟨"rfc5652.DigestedData", Verif.Rfc5652.DigestedData, Std.Rfc5652.DigestedData⟩,
    ⟨"rfc5652.DigestAlgorithmIdentifiers", Verif.Rfc5652.DigestAlgorithmIdentifiers, Std.Rfc5652.DigestAlgorithmIdentifiers⟩,
    ⟨"rfc5652.SignedData", Verif.Rfc5652.SignedData, Std.Rfc5652.SignedData⟩,
    ⟨"rfc5652.SigningTime", Verif.Rfc5652.SigningTime, Std.Rfc5652.SigningTime⟩]⟩

end Rfc5652
end Built
end Verif
