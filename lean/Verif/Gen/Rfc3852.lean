import Verif.Py.Obj
import Verif.Gen.Rfc3280
import Verif.Gen.Rfc3281

/-! Transcription of /repo/pyasn1_modules/rfc3852.py (generated by tools/gen.py). -/

namespace Verif
namespace Rfc3852

/-- rfc3852.py:24 -/
def MAX : Py.Bound :=
  .inf

/-- rfc3852.py:27-35 `def _buildOid(*components)` -/
def _buildOid (components : List Py.OidArg) : Py.Obj :=
  match Py.oidLoop [] components with
  | some output => Py.univ.ObjectIdentifier.call.callArcs output
  | none => .fail "OID without value"

/-- rfc3852.py:38-39 `class AttributeValue(univ.Any)` -/
def AttributeValue : Py.Obj :=
  Py.univ.Any

/-- rfc3852.py:42-43 `class Attribute(univ.Sequence)` -/
def Attribute__0 : Py.Obj :=
  Py.univ.Sequence

/-- rfc3852.py:46-49 `Attribute.componentType = ...` -/
def Attribute : Py.Obj :=
  Rfc3852.Attribute__0.setComponentType (Py.NamedTypes [
    Py.NamedType "attrType" Py.univ.ObjectIdentifier.call,
    Py.NamedType "attrValues" (Py.univ.SetOf.call.setComponentTypeOf Rfc3852.AttributeValue.call)])

/-- rfc3852.py:52-53 `class SignedAttributes(univ.SetOf)` -/
def SignedAttributes__0 : Py.Obj :=
  Py.univ.SetOf

/-- rfc3852.py:56 `SignedAttributes.componentType = ...` -/
def SignedAttributes__1 : Py.Obj :=
  Rfc3852.SignedAttributes__0.setComponentTypeOf Rfc3852.Attribute.call

/-- rfc3852.py:57 `SignedAttributes.sizeSpec = ...` -/
def SignedAttributes : Py.Obj :=
  Rfc3852.SignedAttributes__1.setSizeSpec (Py.ValueSizeConstraint (.fin 1) Rfc3852.MAX)

/-- rfc3852.py:60-61 `class OtherRevocationInfoFormat(univ.Sequence)` -/
def OtherRevocationInfoFormat__0 : Py.Obj :=
  Py.univ.Sequence

/-- rfc3852.py:64-67 `OtherRevocationInfoFormat.componentType = ...` -/
def OtherRevocationInfoFormat : Py.Obj :=
  Rfc3852.OtherRevocationInfoFormat__0.setComponentType (Py.NamedTypes [
    Py.NamedType "otherRevInfoFormat" Py.univ.ObjectIdentifier.call,
    Py.NamedType "otherRevInfo" Py.univ.Any.call])

/-- rfc3852.py:70-71 `class RevocationInfoChoice(univ.Choice)` -/
def RevocationInfoChoice__0 : Py.Obj :=
  Py.univ.Choice

/-- rfc3852.py:74-78 `RevocationInfoChoice.componentType = ...` -/
def RevocationInfoChoice : Py.Obj :=
  Rfc3852.RevocationInfoChoice__0.setComponentType (Py.NamedTypes [
    Py.NamedType "crl" Rfc3280.CertificateList.call,
    Py.NamedType "other" (Rfc3852.OtherRevocationInfoFormat.call.implicitTag (Py.Tag .context true 1))])

/-- rfc3852.py:81-82 `class RevocationInfoChoices(univ.SetOf)` -/
def RevocationInfoChoices__0 : Py.Obj :=
  Py.univ.SetOf

/-- rfc3852.py:85 `RevocationInfoChoices.componentType = ...` -/
def RevocationInfoChoices : Py.Obj :=
  Rfc3852.RevocationInfoChoices__0.setComponentTypeOf Rfc3852.RevocationInfoChoice.call

/-- rfc3852.py:88-89 `class OtherKeyAttribute(univ.Sequence)` -/
def OtherKeyAttribute__0 : Py.Obj :=
  Py.univ.Sequence

/-- rfc3852.py:92-95 `OtherKeyAttribute.componentType = ...` -/
def OtherKeyAttribute : Py.Obj :=
  Rfc3852.OtherKeyAttribute__0.setComponentType (Py.NamedTypes [
    Py.NamedType "keyAttrId" Py.univ.ObjectIdentifier.call,
    Py.OptionalNamedType "keyAttr" Py.univ.Any.call])

/-- rfc3852.py:97 -/
def id_signedData : Py.Obj :=
  (Rfc3852._buildOid [.num 1, .num 2, .num 840, .num 113549, .num 1, .num 7, .num 2])

/-- rfc3852.py:100-101 `class KeyEncryptionAlgorithmIdentifier(rfc3280.AlgorithmIdentifier)` -/
def KeyEncryptionAlgorithmIdentifier : Py.Obj :=
  Rfc3280.AlgorithmIdentifier

/-- rfc3852.py:104-105 `class EncryptedKey(univ.OctetString)` -/
def EncryptedKey : Py.Obj :=
  Py.univ.OctetString

/-- rfc3852.py:108-109 `class CMSVersion(univ.Integer)` -/
def CMSVersion__0 : Py.Obj :=
  Py.univ.Integer

/-- rfc3852.py:112-119 `CMSVersion.namedValues = ...` -/
def CMSVersion : Py.Obj :=
  Rfc3852.CMSVersion__0.setNamedValues (Py.NamedValues [("v0", 0), ("v1", 1), ("v2", 2), ("v3", 3), ("v4", 4), ("v5", 5)])

/-- rfc3852.py:122-123 `class KEKIdentifier(univ.Sequence)` -/
def KEKIdentifier__0 : Py.Obj :=
  Py.univ.Sequence

/-- rfc3852.py:126-130 `KEKIdentifier.componentType = ...` -/
def KEKIdentifier : Py.Obj :=
  Rfc3852.KEKIdentifier__0.setComponentType (Py.NamedTypes [
    Py.NamedType "keyIdentifier" Py.univ.OctetString.call,
    Py.OptionalNamedType "date" Py.useful.GeneralizedTime.call,
    Py.OptionalNamedType "other" Rfc3852.OtherKeyAttribute.call])

/-- rfc3852.py:133-134 `class KEKRecipientInfo(univ.Sequence)` -/
def KEKRecipientInfo__0 : Py.Obj :=
  Py.univ.Sequence

/-- rfc3852.py:137-142 `KEKRecipientInfo.componentType = ...` -/
def KEKRecipientInfo : Py.Obj :=
  Rfc3852.KEKRecipientInfo__0.setComponentType (Py.NamedTypes [
    Py.NamedType "version" Rfc3852.CMSVersion.call,
    Py.NamedType "kekid" Rfc3852.KEKIdentifier.call,
    Py.NamedType "keyEncryptionAlgorithm" Rfc3852.KeyEncryptionAlgorithmIdentifier.call,
    Py.NamedType "encryptedKey" Rfc3852.EncryptedKey.call])

/-- rfc3852.py:145-146 `class KeyDerivationAlgorithmIdentifier(rfc3280.AlgorithmIdentifier)` -/
def KeyDerivationAlgorithmIdentifier : Py.Obj :=
  Rfc3280.AlgorithmIdentifier

/-- rfc3852.py:149-150 `class PasswordRecipientInfo(univ.Sequence)` -/
def PasswordRecipientInfo__0 : Py.Obj :=
  Py.univ.Sequence

/-- rfc3852.py:153-159 `PasswordRecipientInfo.componentType = ...` -/
def PasswordRecipientInfo : Py.Obj :=
  Rfc3852.PasswordRecipientInfo__0.setComponentType (Py.NamedTypes [
    Py.NamedType "version" Rfc3852.CMSVersion.call,
    Py.OptionalNamedType "keyDerivationAlgorithm" (Rfc3852.KeyDerivationAlgorithmIdentifier.call.implicitTag (Py.Tag .context false 0)),
    Py.NamedType "keyEncryptionAlgorithm" Rfc3852.KeyEncryptionAlgorithmIdentifier.call,
    Py.NamedType "encryptedKey" Rfc3852.EncryptedKey.call])

/-- rfc3852.py:162-163 `class OtherRecipientInfo(univ.Sequence)` -/
def OtherRecipientInfo__0 : Py.Obj :=
  Py.univ.Sequence

/-- rfc3852.py:166-169 `OtherRecipientInfo.componentType = ...` -/
def OtherRecipientInfo : Py.Obj :=
  Rfc3852.OtherRecipientInfo__0.setComponentType (Py.NamedTypes [
    Py.NamedType "oriType" Py.univ.ObjectIdentifier.call,
    Py.NamedType "oriValue" Py.univ.Any.call])

/-- rfc3852.py:172-173 `class IssuerAndSerialNumber(univ.Sequence)` -/
def IssuerAndSerialNumber__0 : Py.Obj :=
  Py.univ.Sequence

/-- rfc3852.py:176-179 `IssuerAndSerialNumber.componentType = ...` -/
def IssuerAndSerialNumber : Py.Obj :=
  Rfc3852.IssuerAndSerialNumber__0.setComponentType (Py.NamedTypes [
    Py.NamedType "issuer" Rfc3280.Name.call,
    Py.NamedType "serialNumber" Rfc3280.CertificateSerialNumber.call])

/-- rfc3852.py:182-183 `class SubjectKeyIdentifier(univ.OctetString)` -/
def SubjectKeyIdentifier : Py.Obj :=
  Py.univ.OctetString

/-- rfc3852.py:186-187 `class RecipientKeyIdentifier(univ.Sequence)` -/
def RecipientKeyIdentifier__0 : Py.Obj :=
  Py.univ.Sequence

/-- rfc3852.py:190-194 `RecipientKeyIdentifier.componentType = ...` -/
def RecipientKeyIdentifier : Py.Obj :=
  Rfc3852.RecipientKeyIdentifier__0.setComponentType (Py.NamedTypes [
    Py.NamedType "subjectKeyIdentifier" Rfc3852.SubjectKeyIdentifier.call,
    Py.OptionalNamedType "date" Py.useful.GeneralizedTime.call,
    Py.OptionalNamedType "other" Rfc3852.OtherKeyAttribute.call])

/-- rfc3852.py:197-198 `class KeyAgreeRecipientIdentifier(univ.Choice)` -/
def KeyAgreeRecipientIdentifier__0 : Py.Obj :=
  Py.univ.Choice

/-- rfc3852.py:201-205 `KeyAgreeRecipientIdentifier.componentType = ...` -/
def KeyAgreeRecipientIdentifier : Py.Obj :=
  Rfc3852.KeyAgreeRecipientIdentifier__0.setComponentType (Py.NamedTypes [
    Py.NamedType "issuerAndSerialNumber" Rfc3852.IssuerAndSerialNumber.call,
    Py.NamedType "rKeyId" (Rfc3852.RecipientKeyIdentifier.call.implicitTag (Py.Tag .context true 0))])

/-- rfc3852.py:208-209 `class RecipientEncryptedKey(univ.Sequence)` -/
def RecipientEncryptedKey__0 : Py.Obj :=
  Py.univ.Sequence

/-- rfc3852.py:212-215 `RecipientEncryptedKey.componentType = ...` -/
def RecipientEncryptedKey : Py.Obj :=
  Rfc3852.RecipientEncryptedKey__0.setComponentType (Py.NamedTypes [
    Py.NamedType "rid" Rfc3852.KeyAgreeRecipientIdentifier.call,
    Py.NamedType "encryptedKey" Rfc3852.EncryptedKey.call])

/-- rfc3852.py:218-219 `class RecipientEncryptedKeys(univ.SequenceOf)` -/
def RecipientEncryptedKeys__0 : Py.Obj :=
  Py.univ.SequenceOf

/-- rfc3852.py:222 `RecipientEncryptedKeys.componentType = ...` -/
def RecipientEncryptedKeys : Py.Obj :=
  Rfc3852.RecipientEncryptedKeys__0.setComponentTypeOf Rfc3852.RecipientEncryptedKey.call

/-- rfc3852.py:225-226 `class UserKeyingMaterial(univ.OctetString)` -/
def UserKeyingMaterial : Py.Obj :=
  Py.univ.OctetString

/-- rfc3852.py:229-230 `class OriginatorPublicKey(univ.Sequence)` -/
def OriginatorPublicKey__0 : Py.Obj :=
  Py.univ.Sequence

/-- rfc3852.py:233-236 `OriginatorPublicKey.componentType = ...` -/
def OriginatorPublicKey : Py.Obj :=
  Rfc3852.OriginatorPublicKey__0.setComponentType (Py.NamedTypes [
    Py.NamedType "algorithm" Rfc3280.AlgorithmIdentifier.call,
    Py.NamedType "publicKey" Py.univ.BitString.call])

/-- rfc3852.py:239-240 `class OriginatorIdentifierOrKey(univ.Choice)` -/
def OriginatorIdentifierOrKey__0 : Py.Obj :=
  Py.univ.Choice

/-- rfc3852.py:243-249 `OriginatorIdentifierOrKey.componentType = ...` -/
def OriginatorIdentifierOrKey : Py.Obj :=
  Rfc3852.OriginatorIdentifierOrKey__0.setComponentType (Py.NamedTypes [
    Py.NamedType "issuerAndSerialNumber" Rfc3852.IssuerAndSerialNumber.call,
    Py.NamedType "subjectKeyIdentifier" (Rfc3852.SubjectKeyIdentifier.call.implicitTag (Py.Tag .context false 0)),
    Py.NamedType "originatorKey" (Rfc3852.OriginatorPublicKey.call.implicitTag (Py.Tag .context true 1))])

/-- rfc3852.py:252-253 `class KeyAgreeRecipientInfo(univ.Sequence)` -/
def KeyAgreeRecipientInfo__0 : Py.Obj :=
  Py.univ.Sequence

/-- rfc3852.py:256-264 `KeyAgreeRecipientInfo.componentType = ...` -/
def KeyAgreeRecipientInfo : Py.Obj :=
  Rfc3852.KeyAgreeRecipientInfo__0.setComponentType (Py.NamedTypes [
    Py.NamedType "version" Rfc3852.CMSVersion.call,
    Py.NamedType "originator" (Rfc3852.OriginatorIdentifierOrKey.call.explicitTag (Py.Tag .context true 0)),
    Py.OptionalNamedType "ukm" (Rfc3852.UserKeyingMaterial.call.explicitTag (Py.Tag .context false 1)),
    Py.NamedType "keyEncryptionAlgorithm" Rfc3852.KeyEncryptionAlgorithmIdentifier.call,
    Py.NamedType "recipientEncryptedKeys" Rfc3852.RecipientEncryptedKeys.call])

/-- rfc3852.py:267-268 `class RecipientIdentifier(univ.Choice)` -/
def RecipientIdentifier__0 : Py.Obj :=
  Py.univ.Choice

/-- rfc3852.py:271-275 `RecipientIdentifier.componentType = ...` -/
def RecipientIdentifier : Py.Obj :=
  Rfc3852.RecipientIdentifier__0.setComponentType (Py.NamedTypes [
    Py.NamedType "issuerAndSerialNumber" Rfc3852.IssuerAndSerialNumber.call,
    Py.NamedType "subjectKeyIdentifier" (Rfc3852.SubjectKeyIdentifier.call.implicitTag (Py.Tag .context false 0))])

/-- rfc3852.py:278-279 `class KeyTransRecipientInfo(univ.Sequence)` -/
def KeyTransRecipientInfo__0 : Py.Obj :=
  Py.univ.Sequence

/-- rfc3852.py:282-287 `KeyTransRecipientInfo.componentType = ...` -/
def KeyTransRecipientInfo : Py.Obj :=
  Rfc3852.KeyTransRecipientInfo__0.setComponentType (Py.NamedTypes [
    Py.NamedType "version" Rfc3852.CMSVersion.call,
    Py.NamedType "rid" Rfc3852.RecipientIdentifier.call,
    Py.NamedType "keyEncryptionAlgorithm" Rfc3852.KeyEncryptionAlgorithmIdentifier.call,
    Py.NamedType "encryptedKey" Rfc3852.EncryptedKey.call])

/-- rfc3852.py:290-291 `class RecipientInfo(univ.Choice)` -/
def RecipientInfo__0 : Py.Obj :=
  Py.univ.Choice

/-- rfc3852.py:294-304 `RecipientInfo.componentType = ...` -/
def RecipientInfo : Py.Obj :=
  Rfc3852.RecipientInfo__0.setComponentType (Py.NamedTypes [
    Py.NamedType "ktri" Rfc3852.KeyTransRecipientInfo.call,
    Py.NamedType "kari" (Rfc3852.KeyAgreeRecipientInfo.call.implicitTag (Py.Tag .context true 1)),
    Py.NamedType "kekri" (Rfc3852.KEKRecipientInfo.call.implicitTag (Py.Tag .context true 2)),
    Py.NamedType "pwri" (Rfc3852.PasswordRecipientInfo.call.implicitTag (Py.Tag .context true 3)),
    Py.NamedType "ori" (Rfc3852.OtherRecipientInfo.call.implicitTag (Py.Tag .context true 4))])

/-- rfc3852.py:307-308 `class RecipientInfos(univ.SetOf)` -/
def RecipientInfos__0 : Py.Obj :=
  Py.univ.SetOf

/-- rfc3852.py:311 `RecipientInfos.componentType = ...` -/
def RecipientInfos__1 : Py.Obj :=
  Rfc3852.RecipientInfos__0.setComponentTypeOf Rfc3852.RecipientInfo.call

/-- rfc3852.py:312 `RecipientInfos.sizeSpec = ...` -/
def RecipientInfos : Py.Obj :=
  Rfc3852.RecipientInfos__1.setSizeSpec (Py.ValueSizeConstraint (.fin 1) Rfc3852.MAX)

/-- rfc3852.py:315-316 `class DigestAlgorithmIdentifier(rfc3280.AlgorithmIdentifier)` -/
def DigestAlgorithmIdentifier : Py.Obj :=
  Rfc3280.AlgorithmIdentifier

/-- rfc3852.py:319-320 `class Signature(univ.BitString)` -/
def Signature : Py.Obj :=
  Py.univ.BitString

/-- rfc3852.py:323-324 `class SignerIdentifier(univ.Choice)` -/
def SignerIdentifier__0 : Py.Obj :=
  Py.univ.Choice

/-- rfc3852.py:327-331 `SignerIdentifier.componentType = ...` -/
def SignerIdentifier : Py.Obj :=
  Rfc3852.SignerIdentifier__0.setComponentType (Py.NamedTypes [
    Py.NamedType "issuerAndSerialNumber" Rfc3852.IssuerAndSerialNumber.call,
    Py.NamedType "subjectKeyIdentifier" (Rfc3852.SubjectKeyIdentifier.call.implicitTag (Py.Tag .context false 0))])

/-- rfc3852.py:334-335 `class UnprotectedAttributes(univ.SetOf)` -/
def UnprotectedAttributes__0 : Py.Obj :=
  Py.univ.SetOf

/-- rfc3852.py:338 `UnprotectedAttributes.componentType = ...` -/
def UnprotectedAttributes__1 : Py.Obj :=
  Rfc3852.UnprotectedAttributes__0.setComponentTypeOf Rfc3852.Attribute.call

/-- rfc3852.py:339 `UnprotectedAttributes.sizeSpec = ...` -/
def UnprotectedAttributes : Py.Obj :=
  Rfc3852.UnprotectedAttributes__1.setSizeSpec (Py.ValueSizeConstraint (.fin 1) Rfc3852.MAX)

/-- rfc3852.py:342-343 `class ContentType(univ.ObjectIdentifier)` -/
def ContentType : Py.Obj :=
  Py.univ.ObjectIdentifier

/-- rfc3852.py:346-347 `class EncryptedContent(univ.OctetString)` -/
def EncryptedContent : Py.Obj :=
  Py.univ.OctetString

/-- rfc3852.py:350-351 `class ContentEncryptionAlgorithmIdentifier(rfc3280.AlgorithmIdentifier)` -/
def ContentEncryptionAlgorithmIdentifier : Py.Obj :=
  Rfc3280.AlgorithmIdentifier

/-- rfc3852.py:354-355 `class EncryptedContentInfo(univ.Sequence)` -/
def EncryptedContentInfo__0 : Py.Obj :=
  Py.univ.Sequence

/-- rfc3852.py:358-363 `EncryptedContentInfo.componentType = ...` -/
def EncryptedContentInfo : Py.Obj :=
  Rfc3852.EncryptedContentInfo__0.setComponentType (Py.NamedTypes [
    Py.NamedType "contentType" Rfc3852.ContentType.call,
    Py.NamedType "contentEncryptionAlgorithm" Rfc3852.ContentEncryptionAlgorithmIdentifier.call,
    Py.OptionalNamedType "encryptedContent" (Rfc3852.EncryptedContent.call.implicitTag (Py.Tag .context false 0))])

/-- rfc3852.py:366-367 `class EncryptedData(univ.Sequence)` -/
def EncryptedData__0 : Py.Obj :=
  Py.univ.Sequence

/-- rfc3852.py:370-375 `EncryptedData.componentType = ...` -/
def EncryptedData : Py.Obj :=
  Rfc3852.EncryptedData__0.setComponentType (Py.NamedTypes [
    Py.NamedType "version" Rfc3852.CMSVersion.call,
    Py.NamedType "encryptedContentInfo" Rfc3852.EncryptedContentInfo.call,
    Py.OptionalNamedType "unprotectedAttrs" (Rfc3852.UnprotectedAttributes.call.implicitTag (Py.Tag .context false 1))])

/-- rfc3852.py:377 -/
def id_contentType : Py.Obj :=
  (Rfc3852._buildOid [.num 1, .num 2, .num 840, .num 113549, .num 1, .num 9, .num 3])

/-- rfc3852.py:379 -/
def id_data : Py.Obj :=
  (Rfc3852._buildOid [.num 1, .num 2, .num 840, .num 113549, .num 1, .num 7, .num 1])

/-- rfc3852.py:381 -/
def id_messageDigest : Py.Obj :=
  (Rfc3852._buildOid [.num 1, .num 2, .num 840, .num 113549, .num 1, .num 9, .num 4])

/-- rfc3852.py:384-385 `class DigestAlgorithmIdentifiers(univ.SetOf)` -/
def DigestAlgorithmIdentifiers__0 : Py.Obj :=
  Py.univ.SetOf

/-- rfc3852.py:388 `DigestAlgorithmIdentifiers.componentType = ...` -/
def DigestAlgorithmIdentifiers : Py.Obj :=
  Rfc3852.DigestAlgorithmIdentifiers__0.setComponentTypeOf Rfc3852.DigestAlgorithmIdentifier.call

/-- rfc3852.py:391-392 `class EncapsulatedContentInfo(univ.Sequence)` -/
def EncapsulatedContentInfo__0 : Py.Obj :=
  Py.univ.Sequence

/-- rfc3852.py:395-399 `EncapsulatedContentInfo.componentType = ...` -/
def EncapsulatedContentInfo : Py.Obj :=
  Rfc3852.EncapsulatedContentInfo__0.setComponentType (Py.NamedTypes [
    Py.NamedType "eContentType" Rfc3852.ContentType.call,
    Py.OptionalNamedType "eContent" (Py.univ.OctetString.call.explicitTag (Py.Tag .context false 0))])

/-- rfc3852.py:402-403 `class Digest(univ.OctetString)` -/
def Digest : Py.Obj :=
  Py.univ.OctetString

/-- rfc3852.py:406-407 `class DigestedData(univ.Sequence)` -/
def DigestedData__0 : Py.Obj :=
  Py.univ.Sequence

/-- rfc3852.py:410-415 `DigestedData.componentType = ...` -/
def DigestedData : Py.Obj :=
  Rfc3852.DigestedData__0.setComponentType (Py.NamedTypes [
    Py.NamedType "version" Rfc3852.CMSVersion.call,
    Py.NamedType "digestAlgorithm" Rfc3852.DigestAlgorithmIdentifier.call,
    Py.NamedType "encapContentInfo" Rfc3852.EncapsulatedContentInfo.call,
    Py.NamedType "digest" Rfc3852.Digest.call])

/-- rfc3852.py:418-419 `class ContentInfo(univ.Sequence)` -/
def ContentInfo__0 : Py.Obj :=
  Py.univ.Sequence

/-- rfc3852.py:422-425 `ContentInfo.componentType = ...` -/
def ContentInfo : Py.Obj :=
  Rfc3852.ContentInfo__0.setComponentType (Py.NamedTypes [
    Py.NamedType "contentType" Rfc3852.ContentType.call,
    Py.NamedType "content" (Py.univ.Any.call.explicitTag (Py.Tag .context false 0))])

/-- rfc3852.py:428-429 `class UnauthAttributes(univ.SetOf)` -/
def UnauthAttributes__0 : Py.Obj :=
  Py.univ.SetOf

/-- rfc3852.py:432 `UnauthAttributes.componentType = ...` -/
def UnauthAttributes__1 : Py.Obj :=
  Rfc3852.UnauthAttributes__0.setComponentTypeOf Rfc3852.Attribute.call

/-- rfc3852.py:433 `UnauthAttributes.sizeSpec = ...` -/
def UnauthAttributes : Py.Obj :=
  Rfc3852.UnauthAttributes__1.setSizeSpec (Py.ValueSizeConstraint (.fin 1) Rfc3852.MAX)

/-- rfc3852.py:436-437 `class ExtendedCertificateInfo(univ.Sequence)` -/
def ExtendedCertificateInfo__0 : Py.Obj :=
  Py.univ.Sequence

/-- rfc3852.py:440-444 `ExtendedCertificateInfo.componentType = ...` -/
def ExtendedCertificateInfo : Py.Obj :=
  Rfc3852.ExtendedCertificateInfo__0.setComponentType (Py.NamedTypes [
    Py.NamedType "version" Rfc3852.CMSVersion.call,
    Py.NamedType "certificate" Rfc3280.Certificate.call,
    Py.NamedType "attributes" Rfc3852.UnauthAttributes.call])

/-- rfc3852.py:447-448 `class SignatureAlgorithmIdentifier(rfc3280.AlgorithmIdentifier)` -/
def SignatureAlgorithmIdentifier : Py.Obj :=
  Rfc3280.AlgorithmIdentifier

/-- rfc3852.py:451-452 `class ExtendedCertificate(univ.Sequence)` -/
def ExtendedCertificate__0 : Py.Obj :=
  Py.univ.Sequence

/-- rfc3852.py:455-459 `ExtendedCertificate.componentType = ...` -/
def ExtendedCertificate : Py.Obj :=
  Rfc3852.ExtendedCertificate__0.setComponentType (Py.NamedTypes [
    Py.NamedType "extendedCertificateInfo" Rfc3852.ExtendedCertificateInfo.call,
    Py.NamedType "signatureAlgorithm" Rfc3852.SignatureAlgorithmIdentifier.call,
    Py.NamedType "signature" Rfc3852.Signature.call])

/-- rfc3852.py:462-463 `class OtherCertificateFormat(univ.Sequence)` -/
def OtherCertificateFormat__0 : Py.Obj :=
  Py.univ.Sequence

/-- rfc3852.py:466-469 `OtherCertificateFormat.componentType = ...` -/
def OtherCertificateFormat : Py.Obj :=
  Rfc3852.OtherCertificateFormat__0.setComponentType (Py.NamedTypes [
    Py.NamedType "otherCertFormat" Py.univ.ObjectIdentifier.call,
    Py.NamedType "otherCert" Py.univ.Any.call])

/-- rfc3852.py:472-473 `class AttributeCertificateV2(rfc3281.AttributeCertificate)` -/
def AttributeCertificateV2 : Py.Obj :=
  Rfc3281.AttributeCertificate

/-- rfc3852.py:476-477 `class AttCertVersionV1(univ.Integer)` -/
def AttCertVersionV1__0 : Py.Obj :=
  Py.univ.Integer

/-- rfc3852.py:480-482 `AttCertVersionV1.namedValues = ...` -/
def AttCertVersionV1 : Py.Obj :=
  Rfc3852.AttCertVersionV1__0.setNamedValues (Py.NamedValues [("v1", 0)])

/-- rfc3852.py:485-486 `class AttributeCertificateInfoV1(univ.Sequence)` -/
def AttributeCertificateInfoV1__0 : Py.Obj :=
  Py.univ.Sequence

/-- rfc3852.py:489-506 `AttributeCertificateInfoV1.componentType = ...` -/
def AttributeCertificateInfoV1 : Py.Obj :=
  Rfc3852.AttributeCertificateInfoV1__0.setComponentType (Py.NamedTypes [
    Py.DefaultedNamedType "version" (Rfc3852.AttCertVersionV1.call.callStr "v1"),
    Py.NamedType "subject" (Py.univ.Choice.call.setComponentType (Py.NamedTypes [
    Py.NamedType "baseCertificateID" (Rfc3281.IssuerSerial.call.explicitTag (Py.Tag .context false 0)),
    Py.NamedType "subjectName" (Rfc3280.GeneralNames.call.explicitTag (Py.Tag .context false 1))])),
    Py.NamedType "issuer" Rfc3280.GeneralNames.call,
    Py.NamedType "signature" Rfc3280.AlgorithmIdentifier.call,
    Py.NamedType "serialNumber" Rfc3280.CertificateSerialNumber.call,
    Py.NamedType "attCertValidityPeriod" Rfc3281.AttCertValidityPeriod.call,
    Py.NamedType "attributes" (Py.univ.SequenceOf.call.setComponentTypeOf Rfc3280.Attribute.call),
    Py.OptionalNamedType "issuerUniqueID" Rfc3280.UniqueIdentifier.call,
    Py.OptionalNamedType "extensions" Rfc3280.Extensions.call])

/-- rfc3852.py:509-510 `class AttributeCertificateV1(univ.Sequence)` -/
def AttributeCertificateV1__0 : Py.Obj :=
  Py.univ.Sequence

/-- rfc3852.py:513-517 `AttributeCertificateV1.componentType = ...` -/
def AttributeCertificateV1 : Py.Obj :=
  Rfc3852.AttributeCertificateV1__0.setComponentType (Py.NamedTypes [
    Py.NamedType "acInfo" Rfc3852.AttributeCertificateInfoV1.call,
    Py.NamedType "signatureAlgorithm" Rfc3280.AlgorithmIdentifier.call,
    Py.NamedType "signature" Py.univ.BitString.call])

/-- rfc3852.py:520-521 `class CertificateChoices(univ.Choice)` -/
def CertificateChoices__0 : Py.Obj :=
  Py.univ.Choice

/-- rfc3852.py:524-534 `CertificateChoices.componentType = ...` -/
def CertificateChoices : Py.Obj :=
  Rfc3852.CertificateChoices__0.setComponentType (Py.NamedTypes [
    Py.NamedType "certificate" Rfc3280.Certificate.call,
    Py.NamedType "extendedCertificate" (Rfc3852.ExtendedCertificate.call.implicitTag (Py.Tag .context true 0)),
    Py.NamedType "v1AttrCert" (Rfc3852.AttributeCertificateV1.call.implicitTag (Py.Tag .context false 1)),
    Py.NamedType "v2AttrCert" (Rfc3852.AttributeCertificateV2.call.implicitTag (Py.Tag .context false 2)),
    Py.NamedType "other" (Rfc3852.OtherCertificateFormat.call.implicitTag (Py.Tag .context true 3))])

/-- rfc3852.py:537-538 `class CertificateSet(univ.SetOf)` -/
def CertificateSet__0 : Py.Obj :=
  Py.univ.SetOf

/-- rfc3852.py:541 `CertificateSet.componentType = ...` -/
def CertificateSet : Py.Obj :=
  Rfc3852.CertificateSet__0.setComponentTypeOf Rfc3852.CertificateChoices.call

/-- rfc3852.py:544-545 `class MessageAuthenticationCode(univ.OctetString)` -/
def MessageAuthenticationCode : Py.Obj :=
  Py.univ.OctetString

/-- rfc3852.py:548-549 `class UnsignedAttributes(univ.SetOf)` -/
def UnsignedAttributes__0 : Py.Obj :=
  Py.univ.SetOf

/-- rfc3852.py:552 `UnsignedAttributes.componentType = ...` -/
def UnsignedAttributes__1 : Py.Obj :=
  Rfc3852.UnsignedAttributes__0.setComponentTypeOf Rfc3852.Attribute.call

/-- rfc3852.py:553 `UnsignedAttributes.sizeSpec = ...` -/
def UnsignedAttributes : Py.Obj :=
  Rfc3852.UnsignedAttributes__1.setSizeSpec (Py.ValueSizeConstraint (.fin 1) Rfc3852.MAX)

/-- rfc3852.py:556-557 `class SignatureValue(univ.OctetString)` -/
def SignatureValue : Py.Obj :=
  Py.univ.OctetString

/-- rfc3852.py:560-561 `class SignerInfo(univ.Sequence)` -/
def SignerInfo__0 : Py.Obj :=
  Py.univ.Sequence

/-- rfc3852.py:564-574 `SignerInfo.componentType = ...` -/
def SignerInfo : Py.Obj :=
  Rfc3852.SignerInfo__0.setComponentType (Py.NamedTypes [
    Py.NamedType "version" Rfc3852.CMSVersion.call,
    Py.NamedType "sid" Rfc3852.SignerIdentifier.call,
    Py.NamedType "digestAlgorithm" Rfc3852.DigestAlgorithmIdentifier.call,
    Py.OptionalNamedType "signedAttrs" (Rfc3852.SignedAttributes.call.implicitTag (Py.Tag .context false 0)),
    Py.NamedType "signatureAlgorithm" Rfc3852.SignatureAlgorithmIdentifier.call,
    Py.NamedType "signature" Rfc3852.SignatureValue.call,
    Py.OptionalNamedType "unsignedAttrs" (Rfc3852.UnsignedAttributes.call.implicitTag (Py.Tag .context false 1))])

/-- rfc3852.py:577-578 `class SignerInfos(univ.SetOf)` -/
def SignerInfos__0 : Py.Obj :=
  Py.univ.SetOf

/-- rfc3852.py:581 `SignerInfos.componentType = ...` -/
def SignerInfos : Py.Obj :=
  Rfc3852.SignerInfos__0.setComponentTypeOf Rfc3852.SignerInfo.call

/-- rfc3852.py:584-585 `class SignedData(univ.Sequence)` -/
def SignedData__0 : Py.Obj :=
  Py.univ.Sequence

/-- rfc3852.py:588-597 `SignedData.componentType = ...` -/
def SignedData : Py.Obj :=
  Rfc3852.SignedData__0.setComponentType (Py.NamedTypes [
    Py.NamedType "version" Rfc3852.CMSVersion.call,
    Py.NamedType "digestAlgorithms" Rfc3852.DigestAlgorithmIdentifiers.call,
    Py.NamedType "encapContentInfo" Rfc3852.EncapsulatedContentInfo.call,
    Py.OptionalNamedType "certificates" (Rfc3852.CertificateSet.call.implicitTag (Py.Tag .context false 0)),
    Py.OptionalNamedType "crls" (Rfc3852.RevocationInfoChoices.call.implicitTag (Py.Tag .context false 1)),
    Py.NamedType "signerInfos" Rfc3852.SignerInfos.call])

/-- rfc3852.py:600-601 `class MessageAuthenticationCodeAlgorithm(rfc3280.AlgorithmIdentifier)` -/
def MessageAuthenticationCodeAlgorithm : Py.Obj :=
  Rfc3280.AlgorithmIdentifier

/-- rfc3852.py:604-605 `class MessageDigest(univ.OctetString)` -/
def MessageDigest : Py.Obj :=
  Py.univ.OctetString

/-- rfc3852.py:608-609 `class Time(univ.Choice)` -/
def Time__0 : Py.Obj :=
  Py.univ.Choice

/-- rfc3852.py:612-615 `Time.componentType = ...` -/
def Time : Py.Obj :=
  Rfc3852.Time__0.setComponentType (Py.NamedTypes [
    Py.NamedType "utcTime" Py.useful.UTCTime.call,
    Py.NamedType "generalTime" Py.useful.GeneralizedTime.call])

/-- rfc3852.py:618-619 `class OriginatorInfo(univ.Sequence)` -/
def OriginatorInfo__0 : Py.Obj :=
  Py.univ.Sequence

/-- rfc3852.py:622-627 `OriginatorInfo.componentType = ...` -/
def OriginatorInfo : Py.Obj :=
  Rfc3852.OriginatorInfo__0.setComponentType (Py.NamedTypes [
    Py.OptionalNamedType "certs" (Rfc3852.CertificateSet.call.implicitTag (Py.Tag .context false 0)),
    Py.OptionalNamedType "crls" (Rfc3852.RevocationInfoChoices.call.implicitTag (Py.Tag .context false 1))])

/-- rfc3852.py:630-631 `class AuthAttributes(univ.SetOf)` -/
def AuthAttributes__0 : Py.Obj :=
  Py.univ.SetOf

/-- rfc3852.py:634 `AuthAttributes.componentType = ...` -/
def AuthAttributes__1 : Py.Obj :=
  Rfc3852.AuthAttributes__0.setComponentTypeOf Rfc3852.Attribute.call

/-- rfc3852.py:635 `AuthAttributes.sizeSpec = ...` -/
def AuthAttributes : Py.Obj :=
  Rfc3852.AuthAttributes__1.setSizeSpec (Py.ValueSizeConstraint (.fin 1) Rfc3852.MAX)

/-- rfc3852.py:638-639 `class AuthenticatedData(univ.Sequence)` -/
def AuthenticatedData__0 : Py.Obj :=
  Py.univ.Sequence

/-- rfc3852.py:642-656 `AuthenticatedData.componentType = ...` -/
def AuthenticatedData : Py.Obj :=
  Rfc3852.AuthenticatedData__0.setComponentType (Py.NamedTypes [
    Py.NamedType "version" Rfc3852.CMSVersion.call,
    Py.OptionalNamedType "originatorInfo" (Rfc3852.OriginatorInfo.call.implicitTag (Py.Tag .context true 0)),
    Py.NamedType "recipientInfos" Rfc3852.RecipientInfos.call,
    Py.NamedType "macAlgorithm" Rfc3852.MessageAuthenticationCodeAlgorithm.call,
    Py.OptionalNamedType "digestAlgorithm" (Rfc3852.DigestAlgorithmIdentifier.call.implicitTag (Py.Tag .context false 1)),
    Py.NamedType "encapContentInfo" Rfc3852.EncapsulatedContentInfo.call,
    Py.OptionalNamedType "authAttrs" (Rfc3852.AuthAttributes.call.implicitTag (Py.Tag .context false 2)),
    Py.NamedType "mac" Rfc3852.MessageAuthenticationCode.call,
    Py.OptionalNamedType "unauthAttrs" (Rfc3852.UnauthAttributes.call.implicitTag (Py.Tag .context false 3))])

/-- rfc3852.py:658 -/
def id_ct_contentInfo : Py.Obj :=
  (Rfc3852._buildOid [.num 1, .num 2, .num 840, .num 113549, .num 1, .num 9, .num 16, .num 1, .num 6])

/-- rfc3852.py:660 -/
def id_envelopedData : Py.Obj :=
  (Rfc3852._buildOid [.num 1, .num 2, .num 840, .num 113549, .num 1, .num 7, .num 3])

/-- rfc3852.py:663-664 `class EnvelopedData(univ.Sequence)` -/
def EnvelopedData__0 : Py.Obj :=
  Py.univ.Sequence

/-- rfc3852.py:667-675 `EnvelopedData.componentType = ...` -/
def EnvelopedData : Py.Obj :=
  Rfc3852.EnvelopedData__0.setComponentType (Py.NamedTypes [
    Py.NamedType "version" Rfc3852.CMSVersion.call,
    Py.OptionalNamedType "originatorInfo" (Rfc3852.OriginatorInfo.call.implicitTag (Py.Tag .context true 0)),
    Py.NamedType "recipientInfos" Rfc3852.RecipientInfos.call,
    Py.NamedType "encryptedContentInfo" Rfc3852.EncryptedContentInfo.call,
    Py.OptionalNamedType "unprotectedAttrs" (Rfc3852.UnprotectedAttributes.call.implicitTag (Py.Tag .context false 1))])

/-- rfc3852.py:678-679 `class Countersignature(SignerInfo)` -/
def Countersignature : Py.Obj :=
  Rfc3852.SignerInfo

/-- rfc3852.py:682 -/
def id_digestedData : Py.Obj :=
  (Rfc3852._buildOid [.num 1, .num 2, .num 840, .num 113549, .num 1, .num 7, .num 5])

/-- rfc3852.py:684 -/
def id_signingTime : Py.Obj :=
  (Rfc3852._buildOid [.num 1, .num 2, .num 840, .num 113549, .num 1, .num 9, .num 5])

/-- rfc3852.py:687-688 `class ExtendedCertificateOrCertificate(univ.Choice)` -/
def ExtendedCertificateOrCertificate__0 : Py.Obj :=
  Py.univ.Choice

/-- rfc3852.py:691-695 `ExtendedCertificateOrCertificate.componentType = ...` -/
def ExtendedCertificateOrCertificate : Py.Obj :=
  Rfc3852.ExtendedCertificateOrCertificate__0.setComponentType (Py.NamedTypes [
    Py.NamedType "certificate" Rfc3280.Certificate.call,
    Py.NamedType "extendedCertificate" (Rfc3852.ExtendedCertificate.call.implicitTag (Py.Tag .context true 0))])

/-- rfc3852.py:697 -/
def id_encryptedData : Py.Obj :=
  (Rfc3852._buildOid [.num 1, .num 2, .num 840, .num 113549, .num 1, .num 7, .num 6])

/-- rfc3852.py:699 -/
def id_ct_authData : Py.Obj :=
  (Rfc3852._buildOid [.num 1, .num 2, .num 840, .num 113549, .num 1, .num 9, .num 16, .num 1, .num 2])

/-- rfc3852.py:702-703 `class SigningTime(Time)` -/
def SigningTime : Py.Obj :=
  Rfc3852.Time

/-- rfc3852.py:706 -/
def id_countersignature : Py.Obj :=
  (Rfc3852._buildOid [.num 1, .num 2, .num 840, .num 113549, .num 1, .num 9, .num 6])

/-- Modules of this package imported by rfc3852.py, in textual order. -/
def imports : List Py.Ident :=
  [(Py.mod 13 "rfc3280"), (Py.mod 14 "rfc3281")]

/-- Dictionary operations executed when rfc3852.py is imported, in program order. -/
def effects : List Py.Effect :=
  []

/-- ASN.1 types rfc3852.py binds at module level (final version of each name), plus nested classes. -/
def classes : List (String × Py.Obj) :=
  [("rfc3852.AttributeValue", Rfc3852.AttributeValue),
   ("rfc3852.Attribute", Rfc3852.Attribute),
   ("rfc3852.SignedAttributes", Rfc3852.SignedAttributes),
   ("rfc3852.OtherRevocationInfoFormat", Rfc3852.OtherRevocationInfoFormat),
   ("rfc3852.RevocationInfoChoice", Rfc3852.RevocationInfoChoice),
   ("rfc3852.RevocationInfoChoices", Rfc3852.RevocationInfoChoices),
   ("rfc3852.OtherKeyAttribute", Rfc3852.OtherKeyAttribute),
   ("rfc3852.KeyEncryptionAlgorithmIdentifier", Rfc3852.KeyEncryptionAlgorithmIdentifier),
   ("rfc3852.EncryptedKey", Rfc3852.EncryptedKey),
   ("rfc3852.CMSVersion", Rfc3852.CMSVersion),
   ("rfc3852.KEKIdentifier", Rfc3852.KEKIdentifier),
   ("rfc3852.KEKRecipientInfo", Rfc3852.KEKRecipientInfo),
   ("rfc3852.KeyDerivationAlgorithmIdentifier", Rfc3852.KeyDerivationAlgorithmIdentifier),
   ("rfc3852.PasswordRecipientInfo", Rfc3852.PasswordRecipientInfo),
   ("rfc3852.OtherRecipientInfo", Rfc3852.OtherRecipientInfo),
   ("rfc3852.IssuerAndSerialNumber", Rfc3852.IssuerAndSerialNumber),
   ("rfc3852.SubjectKeyIdentifier", Rfc3852.SubjectKeyIdentifier),
   ("rfc3852.RecipientKeyIdentifier", Rfc3852.RecipientKeyIdentifier),
   ("rfc3852.KeyAgreeRecipientIdentifier", Rfc3852.KeyAgreeRecipientIdentifier),
   ("rfc3852.RecipientEncryptedKey", Rfc3852.RecipientEncryptedKey),
   ("rfc3852.RecipientEncryptedKeys", Rfc3852.RecipientEncryptedKeys),
   ("rfc3852.UserKeyingMaterial", Rfc3852.UserKeyingMaterial),
   ("rfc3852.OriginatorPublicKey", Rfc3852.OriginatorPublicKey),
   ("rfc3852.OriginatorIdentifierOrKey", Rfc3852.OriginatorIdentifierOrKey),
   ("rfc3852.KeyAgreeRecipientInfo", Rfc3852.KeyAgreeRecipientInfo),
   ("rfc3852.RecipientIdentifier", Rfc3852.RecipientIdentifier),
   ("rfc3852.KeyTransRecipientInfo", Rfc3852.KeyTransRecipientInfo),
   ("rfc3852.RecipientInfo", Rfc3852.RecipientInfo),
   ("rfc3852.RecipientInfos", Rfc3852.RecipientInfos),
   ("rfc3852.DigestAlgorithmIdentifier", Rfc3852.DigestAlgorithmIdentifier),
   ("rfc3852.Signature", Rfc3852.Signature),
   ("rfc3852.SignerIdentifier", Rfc3852.SignerIdentifier),
   ("rfc3852.UnprotectedAttributes", Rfc3852.UnprotectedAttributes),
   ("rfc3852.ContentType", Rfc3852.ContentType),
   ("rfc3852.EncryptedContent", Rfc3852.EncryptedContent),
   ("rfc3852.ContentEncryptionAlgorithmIdentifier", Rfc3852.ContentEncryptionAlgorithmIdentifier),
   ("rfc3852.EncryptedContentInfo", Rfc3852.EncryptedContentInfo),
   ("rfc3852.EncryptedData", Rfc3852.EncryptedData),
   ("rfc3852.DigestAlgorithmIdentifiers", Rfc3852.DigestAlgorithmIdentifiers),
   ("rfc3852.EncapsulatedContentInfo", Rfc3852.EncapsulatedContentInfo),
   ("rfc3852.Digest", Rfc3852.Digest),
   ("rfc3852.DigestedData", Rfc3852.DigestedData),
   ("rfc3852.ContentInfo", Rfc3852.ContentInfo),
   ("rfc3852.UnauthAttributes", Rfc3852.UnauthAttributes),
   ("rfc3852.ExtendedCertificateInfo", Rfc3852.ExtendedCertificateInfo),
   ("rfc3852.SignatureAlgorithmIdentifier", Rfc3852.SignatureAlgorithmIdentifier),
   ("rfc3852.ExtendedCertificate", Rfc3852.ExtendedCertificate),
   ("rfc3852.OtherCertificateFormat", Rfc3852.OtherCertificateFormat),
   ("rfc3852.AttributeCertificateV2", Rfc3852.AttributeCertificateV2),
   ("rfc3852.AttCertVersionV1", Rfc3852.AttCertVersionV1),
   ("rfc3852.AttributeCertificateInfoV1", Rfc3852.AttributeCertificateInfoV1),
   ("rfc3852.AttributeCertificateV1", Rfc3852.AttributeCertificateV1),
   ("rfc3852.CertificateChoices", Rfc3852.CertificateChoices),
   ("rfc3852.CertificateSet", Rfc3852.CertificateSet),
   ("rfc3852.MessageAuthenticationCode", Rfc3852.MessageAuthenticationCode),
   ("rfc3852.UnsignedAttributes", Rfc3852.UnsignedAttributes),
   ("rfc3852.SignatureValue", Rfc3852.SignatureValue),
   ("rfc3852.SignerInfo", Rfc3852.SignerInfo),
   ("rfc3852.SignerInfos", Rfc3852.SignerInfos),
   ("rfc3852.SignedData", Rfc3852.SignedData),
   ("rfc3852.MessageAuthenticationCodeAlgorithm", Rfc3852.MessageAuthenticationCodeAlgorithm),
   ("rfc3852.MessageDigest", Rfc3852.MessageDigest),
   ("rfc3852.Time", Rfc3852.Time),
   ("rfc3852.OriginatorInfo", Rfc3852.OriginatorInfo),
   ("rfc3852.AuthAttributes", Rfc3852.AuthAttributes),
   ("rfc3852.AuthenticatedData", Rfc3852.AuthenticatedData),
   ("rfc3852.EnvelopedData", Rfc3852.EnvelopedData),
   ("rfc3852.Countersignature", Rfc3852.Countersignature),
   ("rfc3852.ExtendedCertificateOrCertificate", Rfc3852.ExtendedCertificateOrCertificate),
   ("rfc3852.SigningTime", Rfc3852.SigningTime)]

/-- pyasn1 instances rfc3852.py binds at module level. -/
def objects : List (String × Py.Obj) :=
  [("rfc3852.id_signedData", Rfc3852.id_signedData),
   ("rfc3852.id_contentType", Rfc3852.id_contentType),
   ("rfc3852.id_data", Rfc3852.id_data),
   ("rfc3852.id_messageDigest", Rfc3852.id_messageDigest),
   ("rfc3852.id_ct_contentInfo", Rfc3852.id_ct_contentInfo),
   ("rfc3852.id_envelopedData", Rfc3852.id_envelopedData),
   ("rfc3852.id_digestedData", Rfc3852.id_digestedData),
   ("rfc3852.id_signingTime", Rfc3852.id_signingTime),
   ("rfc3852.id_encryptedData", Rfc3852.id_encryptedData),
   ("rfc3852.id_ct_authData", Rfc3852.id_ct_authData),
   ("rfc3852.id_countersignature", Rfc3852.id_countersignature)]

/-- pyasn1 instances rfc3852.py fills in by item assignment. -/
def protos : List (String × Py.Proto) :=
  []

/-- Every place of rfc3852.py that instantiates a class of the package: where, the class as it is
at that point, and the class as it is when the import has finished. -/
def snapshots : List Py.Snapshot :=
  [⟨"rfc3852.py:48", Rfc3852.AttributeValue, Rfc3852.AttributeValue⟩,
   ⟨"rfc3852.py:56", Rfc3852.Attribute, Rfc3852.Attribute⟩,
   ⟨"rfc3852.py:75", Rfc3280.CertificateList, Rfc3280.CertificateList⟩,
   ⟨"rfc3852.py:76", Rfc3852.OtherRevocationInfoFormat, Rfc3852.OtherRevocationInfoFormat⟩,
   ⟨"rfc3852.py:85", Rfc3852.RevocationInfoChoice, Rfc3852.RevocationInfoChoice⟩,
   ⟨"rfc3852.py:129", Rfc3852.OtherKeyAttribute, Rfc3852.OtherKeyAttribute⟩,
   ⟨"rfc3852.py:138", Rfc3852.CMSVersion, Rfc3852.CMSVersion⟩,
   ⟨"rfc3852.py:139", Rfc3852.KEKIdentifier, Rfc3852.KEKIdentifier⟩,
   ⟨"rfc3852.py:140", Rfc3852.KeyEncryptionAlgorithmIdentifier, Rfc3852.KeyEncryptionAlgorithmIdentifier⟩,
   ⟨"rfc3852.py:141", Rfc3852.EncryptedKey, Rfc3852.EncryptedKey⟩,
   ⟨"rfc3852.py:154", Rfc3852.CMSVersion, Rfc3852.CMSVersion⟩,
   ⟨"rfc3852.py:155", Rfc3852.KeyDerivationAlgorithmIdentifier, Rfc3852.KeyDerivationAlgorithmIdentifier⟩,
   ⟨"rfc3852.py:157", Rfc3852.KeyEncryptionAlgorithmIdentifier, Rfc3852.KeyEncryptionAlgorithmIdentifier⟩,
   ⟨"rfc3852.py:158", Rfc3852.EncryptedKey, Rfc3852.EncryptedKey⟩,
   ⟨"rfc3852.py:177", Rfc3280.Name, Rfc3280.Name⟩,
   ⟨"rfc3852.py:178", Rfc3280.CertificateSerialNumber, Rfc3280.CertificateSerialNumber⟩,
   ⟨"rfc3852.py:191", Rfc3852.SubjectKeyIdentifier, Rfc3852.SubjectKeyIdentifier⟩,
   ⟨"rfc3852.py:193", Rfc3852.OtherKeyAttribute, Rfc3852.OtherKeyAttribute⟩,
   ⟨"rfc3852.py:202", Rfc3852.IssuerAndSerialNumber, Rfc3852.IssuerAndSerialNumber⟩,
   ⟨"rfc3852.py:203", Rfc3852.RecipientKeyIdentifier, Rfc3852.RecipientKeyIdentifier⟩,
   ⟨"rfc3852.py:213", Rfc3852.KeyAgreeRecipientIdentifier, Rfc3852.KeyAgreeRecipientIdentifier⟩,
   ⟨"rfc3852.py:214", Rfc3852.EncryptedKey, Rfc3852.EncryptedKey⟩,
   ⟨"rfc3852.py:222", Rfc3852.RecipientEncryptedKey, Rfc3852.RecipientEncryptedKey⟩,
   ⟨"rfc3852.py:234", Rfc3280.AlgorithmIdentifier, Rfc3280.AlgorithmIdentifier⟩,
   ⟨"rfc3852.py:244", Rfc3852.IssuerAndSerialNumber, Rfc3852.IssuerAndSerialNumber⟩,
   ⟨"rfc3852.py:245", Rfc3852.SubjectKeyIdentifier, Rfc3852.SubjectKeyIdentifier⟩,
   ⟨"rfc3852.py:247", Rfc3852.OriginatorPublicKey, Rfc3852.OriginatorPublicKey⟩,
   ⟨"rfc3852.py:257", Rfc3852.CMSVersion, Rfc3852.CMSVersion⟩,
   ⟨"rfc3852.py:258", Rfc3852.OriginatorIdentifierOrKey, Rfc3852.OriginatorIdentifierOrKey⟩,
   ⟨"rfc3852.py:260", Rfc3852.UserKeyingMaterial, Rfc3852.UserKeyingMaterial⟩,
   ⟨"rfc3852.py:262", Rfc3852.KeyEncryptionAlgorithmIdentifier, Rfc3852.KeyEncryptionAlgorithmIdentifier⟩,
   ⟨"rfc3852.py:263", Rfc3852.RecipientEncryptedKeys, Rfc3852.RecipientEncryptedKeys⟩,
   ⟨"rfc3852.py:272", Rfc3852.IssuerAndSerialNumber, Rfc3852.IssuerAndSerialNumber⟩,
   ⟨"rfc3852.py:273", Rfc3852.SubjectKeyIdentifier, Rfc3852.SubjectKeyIdentifier⟩,
   ⟨"rfc3852.py:283", Rfc3852.CMSVersion, Rfc3852.CMSVersion⟩,
   ⟨"rfc3852.py:284", Rfc3852.RecipientIdentifier, Rfc3852.RecipientIdentifier⟩,
   ⟨"rfc3852.py:285", Rfc3852.KeyEncryptionAlgorithmIdentifier, Rfc3852.KeyEncryptionAlgorithmIdentifier⟩,
   ⟨"rfc3852.py:286", Rfc3852.EncryptedKey, Rfc3852.EncryptedKey⟩,
   ⟨"rfc3852.py:295", Rfc3852.KeyTransRecipientInfo, Rfc3852.KeyTransRecipientInfo⟩,
   ⟨"rfc3852.py:296", Rfc3852.KeyAgreeRecipientInfo, Rfc3852.KeyAgreeRecipientInfo⟩,
   ⟨"rfc3852.py:298", Rfc3852.KEKRecipientInfo, Rfc3852.KEKRecipientInfo⟩,
   ⟨"rfc3852.py:300", Rfc3852.PasswordRecipientInfo, Rfc3852.PasswordRecipientInfo⟩,
   ⟨"rfc3852.py:302", Rfc3852.OtherRecipientInfo, Rfc3852.OtherRecipientInfo⟩,
   ⟨"rfc3852.py:311", Rfc3852.RecipientInfo, Rfc3852.RecipientInfo⟩,
   ⟨"rfc3852.py:328", Rfc3852.IssuerAndSerialNumber, Rfc3852.IssuerAndSerialNumber⟩,
   ⟨"rfc3852.py:329", Rfc3852.SubjectKeyIdentifier, Rfc3852.SubjectKeyIdentifier⟩,
   ⟨"rfc3852.py:338", Rfc3852.Attribute, Rfc3852.Attribute⟩,
   ⟨"rfc3852.py:359", Rfc3852.ContentType, Rfc3852.ContentType⟩,
   ⟨"rfc3852.py:360", Rfc3852.ContentEncryptionAlgorithmIdentifier, Rfc3852.ContentEncryptionAlgorithmIdentifier⟩,
   ⟨"rfc3852.py:361", Rfc3852.EncryptedContent, Rfc3852.EncryptedContent⟩,
   ⟨"rfc3852.py:371", Rfc3852.CMSVersion, Rfc3852.CMSVersion⟩,
   ⟨"rfc3852.py:372", Rfc3852.EncryptedContentInfo, Rfc3852.EncryptedContentInfo⟩,
   ⟨"rfc3852.py:373", Rfc3852.UnprotectedAttributes, Rfc3852.UnprotectedAttributes⟩,
   ⟨"rfc3852.py:388", Rfc3852.DigestAlgorithmIdentifier, Rfc3852.DigestAlgorithmIdentifier⟩,
   ⟨"rfc3852.py:396", Rfc3852.ContentType, Rfc3852.ContentType⟩,
   ⟨"rfc3852.py:411", Rfc3852.CMSVersion, Rfc3852.CMSVersion⟩,
   ⟨"rfc3852.py:412", Rfc3852.DigestAlgorithmIdentifier, Rfc3852.DigestAlgorithmIdentifier⟩,
   ⟨"rfc3852.py:413", Rfc3852.EncapsulatedContentInfo, Rfc3852.EncapsulatedContentInfo⟩,
   ⟨"rfc3852.py:414", Rfc3852.Digest, Rfc3852.Digest⟩,
   ⟨"rfc3852.py:423", Rfc3852.ContentType, Rfc3852.ContentType⟩,
   ⟨"rfc3852.py:432", Rfc3852.Attribute, Rfc3852.Attribute⟩,
   ⟨"rfc3852.py:441", Rfc3852.CMSVersion, Rfc3852.CMSVersion⟩,
   ⟨"rfc3852.py:442", Rfc3280.Certificate, Rfc3280.Certificate⟩,
   ⟨"rfc3852.py:443", Rfc3852.UnauthAttributes, Rfc3852.UnauthAttributes⟩,
   ⟨"rfc3852.py:456", Rfc3852.ExtendedCertificateInfo, Rfc3852.ExtendedCertificateInfo⟩,
   ⟨"rfc3852.py:457", Rfc3852.SignatureAlgorithmIdentifier, Rfc3852.SignatureAlgorithmIdentifier⟩,
   ⟨"rfc3852.py:458", Rfc3852.Signature, Rfc3852.Signature⟩,
   ⟨"rfc3852.py:490", Rfc3852.AttCertVersionV1, Rfc3852.AttCertVersionV1⟩,
   ⟨"rfc3852.py:494", Rfc3281.IssuerSerial, Rfc3281.IssuerSerial⟩,
   ⟨"rfc3852.py:495", Rfc3280.GeneralNames, Rfc3280.GeneralNames⟩,
   ⟨"rfc3852.py:499", Rfc3280.GeneralNames, Rfc3280.GeneralNames⟩,
   ⟨"rfc3852.py:500", Rfc3280.AlgorithmIdentifier, Rfc3280.AlgorithmIdentifier⟩,
   ⟨"rfc3852.py:501", Rfc3280.CertificateSerialNumber, Rfc3280.CertificateSerialNumber⟩,
   ⟨"rfc3852.py:502", Rfc3281.AttCertValidityPeriod, Rfc3281.AttCertValidityPeriod⟩,
   ⟨"rfc3852.py:503", Rfc3280.Attribute, Rfc3280.Attribute⟩,
   ⟨"rfc3852.py:504", Rfc3280.UniqueIdentifier, Rfc3280.UniqueIdentifier⟩,
   ⟨"rfc3852.py:505", Rfc3280.Extensions, Rfc3280.Extensions⟩,
   ⟨"rfc3852.py:514", Rfc3852.AttributeCertificateInfoV1, Rfc3852.AttributeCertificateInfoV1⟩,
   ⟨"rfc3852.py:515", Rfc3280.AlgorithmIdentifier, Rfc3280.AlgorithmIdentifier⟩,
   ⟨"rfc3852.py:525", Rfc3280.Certificate, Rfc3280.Certificate⟩,
   ⟨"rfc3852.py:526", Rfc3852.ExtendedCertificate, Rfc3852.ExtendedCertificate⟩,
   ⟨"rfc3852.py:528", Rfc3852.AttributeCertificateV1, Rfc3852.AttributeCertificateV1⟩,
   ⟨"rfc3852.py:530", Rfc3852.AttributeCertificateV2, Rfc3852.AttributeCertificateV2⟩,
   ⟨"rfc3852.py:532", Rfc3852.OtherCertificateFormat, Rfc3852.OtherCertificateFormat⟩,
   ⟨"rfc3852.py:541", Rfc3852.CertificateChoices, Rfc3852.CertificateChoices⟩,
   ⟨"rfc3852.py:552", Rfc3852.Attribute, Rfc3852.Attribute⟩,
   ⟨"rfc3852.py:565", Rfc3852.CMSVersion, Rfc3852.CMSVersion⟩,
   ⟨"rfc3852.py:566", Rfc3852.SignerIdentifier, Rfc3852.SignerIdentifier⟩,
   ⟨"rfc3852.py:567", Rfc3852.DigestAlgorithmIdentifier, Rfc3852.DigestAlgorithmIdentifier⟩,
   ⟨"rfc3852.py:568", Rfc3852.SignedAttributes, Rfc3852.SignedAttributes⟩,
   ⟨"rfc3852.py:570", Rfc3852.SignatureAlgorithmIdentifier, Rfc3852.SignatureAlgorithmIdentifier⟩,
   ⟨"rfc3852.py:571", Rfc3852.SignatureValue, Rfc3852.SignatureValue⟩,
   ⟨"rfc3852.py:572", Rfc3852.UnsignedAttributes, Rfc3852.UnsignedAttributes⟩,
   ⟨"rfc3852.py:581", Rfc3852.SignerInfo, Rfc3852.SignerInfo⟩,
   ⟨"rfc3852.py:589", Rfc3852.CMSVersion, Rfc3852.CMSVersion⟩,
   ⟨"rfc3852.py:590", Rfc3852.DigestAlgorithmIdentifiers, Rfc3852.DigestAlgorithmIdentifiers⟩,
   ⟨"rfc3852.py:591", Rfc3852.EncapsulatedContentInfo, Rfc3852.EncapsulatedContentInfo⟩,
   ⟨"rfc3852.py:592", Rfc3852.CertificateSet, Rfc3852.CertificateSet⟩,
   ⟨"rfc3852.py:594", Rfc3852.RevocationInfoChoices, Rfc3852.RevocationInfoChoices⟩,
   ⟨"rfc3852.py:596", Rfc3852.SignerInfos, Rfc3852.SignerInfos⟩,
   ⟨"rfc3852.py:623", Rfc3852.CertificateSet, Rfc3852.CertificateSet⟩,
   ⟨"rfc3852.py:625", Rfc3852.RevocationInfoChoices, Rfc3852.RevocationInfoChoices⟩,
   ⟨"rfc3852.py:634", Rfc3852.Attribute, Rfc3852.Attribute⟩,
   ⟨"rfc3852.py:643", Rfc3852.CMSVersion, Rfc3852.CMSVersion⟩,
   ⟨"rfc3852.py:644", Rfc3852.OriginatorInfo, Rfc3852.OriginatorInfo⟩,
   ⟨"rfc3852.py:646", Rfc3852.RecipientInfos, Rfc3852.RecipientInfos⟩,
   ⟨"rfc3852.py:647", Rfc3852.MessageAuthenticationCodeAlgorithm, Rfc3852.MessageAuthenticationCodeAlgorithm⟩,
   ⟨"rfc3852.py:648", Rfc3852.DigestAlgorithmIdentifier, Rfc3852.DigestAlgorithmIdentifier⟩,
   ⟨"rfc3852.py:650", Rfc3852.EncapsulatedContentInfo, Rfc3852.EncapsulatedContentInfo⟩,
   ⟨"rfc3852.py:651", Rfc3852.AuthAttributes, Rfc3852.AuthAttributes⟩,
   ⟨"rfc3852.py:653", Rfc3852.MessageAuthenticationCode, Rfc3852.MessageAuthenticationCode⟩,
   ⟨"rfc3852.py:654", Rfc3852.UnauthAttributes, Rfc3852.UnauthAttributes⟩,
   ⟨"rfc3852.py:668", Rfc3852.CMSVersion, Rfc3852.CMSVersion⟩,
   ⟨"rfc3852.py:669", Rfc3852.OriginatorInfo, Rfc3852.OriginatorInfo⟩,
   ⟨"rfc3852.py:671", Rfc3852.RecipientInfos, Rfc3852.RecipientInfos⟩,
   ⟨"rfc3852.py:672", Rfc3852.EncryptedContentInfo, Rfc3852.EncryptedContentInfo⟩,
   ⟨"rfc3852.py:673", Rfc3852.UnprotectedAttributes, Rfc3852.UnprotectedAttributes⟩,
   ⟨"rfc3852.py:692", Rfc3280.Certificate, Rfc3280.Certificate⟩,
   ⟨"rfc3852.py:693", Rfc3852.ExtendedCertificate, Rfc3852.ExtendedCertificate⟩]

/-- Functions rfc3852.py defines. -/
def builders : List (String × (List Py.OidArg → Py.Obj)) :=
  [("rfc3852._buildOid", Rfc3852._buildOid)]

def asModule : Py.Module :=
  { id := (Py.mod 51 "rfc3852"), imports := imports, effects := effects, classes := classes, objects := objects, protos := protos, snapshots := snapshots, builders := builders }

end Rfc3852
end Verif
