import Verif.Py.Obj
import Verif.Gen.Rfc3281
import Verif.Gen.Rfc5280

/-! Transcription of /repo/pyasn1_modules/rfc5652.py (generated by tools/gen.py). -/

namespace Verif
namespace Rfc5652

/-- rfc5652.py:27 -/
def MAX : Py.Bound :=
  .inf

/-- rfc5652.py:30-38 `def _buildOid(*components)` -/
def _buildOid (components : List Py.OidArg) : Py.Obj :=
  match Py.oidLoop [] components with
  | some output => Py.univ.ObjectIdentifier.call.callArcs output
  | none => .fail "OID without value"

/-- rfc5652.py:41 -/
def cmsContentTypesMap : Py.Entries :=
  []

/-- rfc5652.py:43 -/
def cmsAttributesMap : Py.Entries :=
  []

/-- rfc5652.py:45 -/
def otherKeyAttributesMap : Py.Entries :=
  []

/-- rfc5652.py:47 -/
def otherCertFormatMap : Py.Entries :=
  []

/-- rfc5652.py:49 -/
def otherRevInfoFormatMap : Py.Entries :=
  []

/-- rfc5652.py:51 -/
def otherRecipientInfoMap : Py.Entries :=
  []

/-- rfc5652.py:54-55 `class AttCertVersionV1(univ.Integer)` -/
def AttCertVersionV1__0 : Py.Obj :=
  Py.univ.Integer

/-- rfc5652.py:58-60 `AttCertVersionV1.namedValues = ...` -/
def AttCertVersionV1 : Py.Obj :=
  Rfc5652.AttCertVersionV1__0.setNamedValues (Py.NamedValues [("v1", 0)])

/-- rfc5652.py:63-64 `class AttributeCertificateInfoV1(univ.Sequence)` -/
def AttributeCertificateInfoV1__0 : Py.Obj :=
  Py.univ.Sequence

/-- rfc5652.py:67-84 `AttributeCertificateInfoV1.componentType = ...` -/
def AttributeCertificateInfoV1 : Py.Obj :=
  Rfc5652.AttributeCertificateInfoV1__0.setComponentType (Py.NamedTypes [
    Py.DefaultedNamedType "version" (Rfc5652.AttCertVersionV1.call.callStr "v1"),
    Py.NamedType "subject" (Py.univ.Choice.call.setComponentType (Py.NamedTypes [
    Py.NamedType "baseCertificateID" (Rfc3281.IssuerSerial.call.explicitTag (Py.Tag .context false 0)),
    Py.NamedType "subjectName" (Rfc5280.GeneralNames.call.explicitTag (Py.Tag .context false 1))])),
    Py.NamedType "issuer" Rfc5280.GeneralNames.call,
    Py.NamedType "signature" Rfc5280.AlgorithmIdentifier.call,
    Py.NamedType "serialNumber" Rfc5280.CertificateSerialNumber.call,
    Py.NamedType "attCertValidityPeriod" Rfc3281.AttCertValidityPeriod.call,
    Py.NamedType "attributes" (Py.univ.SequenceOf.call.setComponentTypeOf Rfc5280.Attribute.call),
    Py.OptionalNamedType "issuerUniqueID" Rfc5280.UniqueIdentifier.call,
    Py.OptionalNamedType "extensions" Rfc5280.Extensions.call])

/-- rfc5652.py:87-88 `class AttributeCertificateV1(univ.Sequence)` -/
def AttributeCertificateV1__0 : Py.Obj :=
  Py.univ.Sequence

/-- rfc5652.py:91-95 `AttributeCertificateV1.componentType = ...` -/
def AttributeCertificateV1 : Py.Obj :=
  Rfc5652.AttributeCertificateV1__0.setComponentType (Py.NamedTypes [
    Py.NamedType "acInfo" Rfc5652.AttributeCertificateInfoV1.call,
    Py.NamedType "signatureAlgorithm" Rfc5280.AlgorithmIdentifier.call,
    Py.NamedType "signature" Py.univ.BitString.call])

/-- rfc5652.py:98-99 `class AttributeValue(univ.Any)` -/
def AttributeValue : Py.Obj :=
  Py.univ.Any

/-- rfc5652.py:102-103 `class Attribute(univ.Sequence)` -/
def Attribute__0 : Py.Obj :=
  Py.univ.Sequence

/-- rfc5652.py:106-111 `Attribute.componentType = ...` -/
def Attribute : Py.Obj :=
  Rfc5652.Attribute__0.setComponentType (Py.NamedTypes [
    Py.NamedType "attrType" Py.univ.ObjectIdentifier.call,
    Py.NamedType "attrValues" (Py.univ.SetOf.call.setComponentTypeOf Rfc5652.AttributeValue.call) (openType := some (Py.OpenType "attrType" (Py.map 8 "rfc5652.cmsAttributesMap")))])

/-- rfc5652.py:114-115 `class SignedAttributes(univ.SetOf)` -/
def SignedAttributes__0 : Py.Obj :=
  Py.univ.SetOf

/-- rfc5652.py:118 `SignedAttributes.componentType = ...` -/
def SignedAttributes__1 : Py.Obj :=
  Rfc5652.SignedAttributes__0.setComponentTypeOf Rfc5652.Attribute.call

/-- rfc5652.py:119 `SignedAttributes.sizeSpec = ...` -/
def SignedAttributes : Py.Obj :=
  Rfc5652.SignedAttributes__1.setSizeSpec (Py.ValueSizeConstraint (.fin 1) Rfc5652.MAX)

/-- rfc5652.py:122-123 `class AttributeCertificateV2(rfc3281.AttributeCertificate)` -/
def AttributeCertificateV2 : Py.Obj :=
  Rfc3281.AttributeCertificate

/-- rfc5652.py:126-127 `class OtherKeyAttribute(univ.Sequence)` -/
def OtherKeyAttribute__0 : Py.Obj :=
  Py.univ.Sequence

/-- rfc5652.py:130-135 `OtherKeyAttribute.componentType = ...` -/
def OtherKeyAttribute : Py.Obj :=
  Rfc5652.OtherKeyAttribute__0.setComponentType (Py.NamedTypes [
    Py.NamedType "keyAttrId" Py.univ.ObjectIdentifier.call,
    Py.OptionalNamedType "keyAttr" Py.univ.Any.call (openType := some (Py.OpenType "keyAttrId" (Py.map 9 "rfc5652.otherKeyAttributesMap")))])

/-- rfc5652.py:138-139 `class UnauthAttributes(univ.SetOf)` -/
def UnauthAttributes__0 : Py.Obj :=
  Py.univ.SetOf

/-- rfc5652.py:142 `UnauthAttributes.componentType = ...` -/
def UnauthAttributes__1 : Py.Obj :=
  Rfc5652.UnauthAttributes__0.setComponentTypeOf Rfc5652.Attribute.call

/-- rfc5652.py:143 `UnauthAttributes.sizeSpec = ...` -/
def UnauthAttributes : Py.Obj :=
  Rfc5652.UnauthAttributes__1.setSizeSpec (Py.ValueSizeConstraint (.fin 1) Rfc5652.MAX)

/-- rfc5652.py:145 -/
def id_encryptedData : Py.Obj :=
  (Rfc5652._buildOid [.num 1, .num 2, .num 840, .num 113549, .num 1, .num 7, .num 6])

/-- rfc5652.py:148-149 `class SignatureValue(univ.OctetString)` -/
def SignatureValue : Py.Obj :=
  Py.univ.OctetString

/-- rfc5652.py:152-153 `class IssuerAndSerialNumber(univ.Sequence)` -/
def IssuerAndSerialNumber__0 : Py.Obj :=
  Py.univ.Sequence

/-- rfc5652.py:156-159 `IssuerAndSerialNumber.componentType = ...` -/
def IssuerAndSerialNumber : Py.Obj :=
  Rfc5652.IssuerAndSerialNumber__0.setComponentType (Py.NamedTypes [
    Py.NamedType "issuer" Rfc5280.Name.call,
    Py.NamedType "serialNumber" Rfc5280.CertificateSerialNumber.call])

/-- rfc5652.py:162-163 `class SubjectKeyIdentifier(univ.OctetString)` -/
def SubjectKeyIdentifier : Py.Obj :=
  Py.univ.OctetString

/-- rfc5652.py:166-167 `class RecipientKeyIdentifier(univ.Sequence)` -/
def RecipientKeyIdentifier__0 : Py.Obj :=
  Py.univ.Sequence

/-- rfc5652.py:170-174 `RecipientKeyIdentifier.componentType = ...` -/
def RecipientKeyIdentifier : Py.Obj :=
  Rfc5652.RecipientKeyIdentifier__0.setComponentType (Py.NamedTypes [
    Py.NamedType "subjectKeyIdentifier" Rfc5652.SubjectKeyIdentifier.call,
    Py.OptionalNamedType "date" Py.useful.GeneralizedTime.call,
    Py.OptionalNamedType "other" Rfc5652.OtherKeyAttribute.call])

/-- rfc5652.py:177-178 `class KeyAgreeRecipientIdentifier(univ.Choice)` -/
def KeyAgreeRecipientIdentifier__0 : Py.Obj :=
  Py.univ.Choice

/-- rfc5652.py:181-185 `KeyAgreeRecipientIdentifier.componentType = ...` -/
def KeyAgreeRecipientIdentifier : Py.Obj :=
  Rfc5652.KeyAgreeRecipientIdentifier__0.setComponentType (Py.NamedTypes [
    Py.NamedType "issuerAndSerialNumber" Rfc5652.IssuerAndSerialNumber.call,
    Py.NamedType "rKeyId" (Rfc5652.RecipientKeyIdentifier.call.implicitTag (Py.Tag .context true 0))])

/-- rfc5652.py:188-189 `class EncryptedKey(univ.OctetString)` -/
def EncryptedKey : Py.Obj :=
  Py.univ.OctetString

/-- rfc5652.py:192-193 `class RecipientEncryptedKey(univ.Sequence)` -/
def RecipientEncryptedKey__0 : Py.Obj :=
  Py.univ.Sequence

/-- rfc5652.py:196-199 `RecipientEncryptedKey.componentType = ...` -/
def RecipientEncryptedKey : Py.Obj :=
  Rfc5652.RecipientEncryptedKey__0.setComponentType (Py.NamedTypes [
    Py.NamedType "rid" Rfc5652.KeyAgreeRecipientIdentifier.call,
    Py.NamedType "encryptedKey" Rfc5652.EncryptedKey.call])

/-- rfc5652.py:202-203 `class RecipientEncryptedKeys(univ.SequenceOf)` -/
def RecipientEncryptedKeys__0 : Py.Obj :=
  Py.univ.SequenceOf

/-- rfc5652.py:206 `RecipientEncryptedKeys.componentType = ...` -/
def RecipientEncryptedKeys : Py.Obj :=
  Rfc5652.RecipientEncryptedKeys__0.setComponentTypeOf Rfc5652.RecipientEncryptedKey.call

/-- rfc5652.py:209-210 `class MessageAuthenticationCode(univ.OctetString)` -/
def MessageAuthenticationCode : Py.Obj :=
  Py.univ.OctetString

/-- rfc5652.py:213-214 `class CMSVersion(univ.Integer)` -/
def CMSVersion__0 : Py.Obj :=
  Py.univ.Integer

/-- rfc5652.py:217-224 `CMSVersion.namedValues = ...` -/
def CMSVersion : Py.Obj :=
  Rfc5652.CMSVersion__0.setNamedValues (Py.NamedValues [("v0", 0), ("v1", 1), ("v2", 2), ("v3", 3), ("v4", 4), ("v5", 5)])

/-- rfc5652.py:227-228 `class OtherCertificateFormat(univ.Sequence)` -/
def OtherCertificateFormat__0 : Py.Obj :=
  Py.univ.Sequence

/-- rfc5652.py:231-236 `OtherCertificateFormat.componentType = ...` -/
def OtherCertificateFormat : Py.Obj :=
  Rfc5652.OtherCertificateFormat__0.setComponentType (Py.NamedTypes [
    Py.NamedType "otherCertFormat" Py.univ.ObjectIdentifier.call,
    Py.NamedType "otherCert" Py.univ.Any.call (openType := some (Py.OpenType "otherCertFormat" (Py.map 10 "rfc5652.otherCertFormatMap")))])

/-- rfc5652.py:239-240 `class ExtendedCertificateInfo(univ.Sequence)` -/
def ExtendedCertificateInfo__0 : Py.Obj :=
  Py.univ.Sequence

/-- rfc5652.py:243-247 `ExtendedCertificateInfo.componentType = ...` -/
def ExtendedCertificateInfo : Py.Obj :=
  Rfc5652.ExtendedCertificateInfo__0.setComponentType (Py.NamedTypes [
    Py.NamedType "version" Rfc5652.CMSVersion.call,
    Py.NamedType "certificate" Rfc5280.Certificate.call,
    Py.NamedType "attributes" Rfc5652.UnauthAttributes.call])

/-- rfc5652.py:250-251 `class Signature(univ.BitString)` -/
def Signature : Py.Obj :=
  Py.univ.BitString

/-- rfc5652.py:254-255 `class SignatureAlgorithmIdentifier(rfc5280.AlgorithmIdentifier)` -/
def SignatureAlgorithmIdentifier : Py.Obj :=
  Rfc5280.AlgorithmIdentifier

/-- rfc5652.py:258-259 `class ExtendedCertificate(univ.Sequence)` -/
def ExtendedCertificate__0 : Py.Obj :=
  Py.univ.Sequence

/-- rfc5652.py:262-266 `ExtendedCertificate.componentType = ...` -/
def ExtendedCertificate : Py.Obj :=
  Rfc5652.ExtendedCertificate__0.setComponentType (Py.NamedTypes [
    Py.NamedType "extendedCertificateInfo" Rfc5652.ExtendedCertificateInfo.call,
    Py.NamedType "signatureAlgorithm" Rfc5652.SignatureAlgorithmIdentifier.call,
    Py.NamedType "signature" Rfc5652.Signature.call])

/-- rfc5652.py:269-270 `class CertificateChoices(univ.Choice)` -/
def CertificateChoices__0 : Py.Obj :=
  Py.univ.Choice

/-- rfc5652.py:273-283 `CertificateChoices.componentType = ...` -/
def CertificateChoices : Py.Obj :=
  Rfc5652.CertificateChoices__0.setComponentType (Py.NamedTypes [
    Py.NamedType "certificate" Rfc5280.Certificate.call,
    Py.NamedType "extendedCertificate" (Rfc5652.ExtendedCertificate.call.implicitTag (Py.Tag .context true 0)),
    Py.NamedType "v1AttrCert" (Rfc5652.AttributeCertificateV1.call.implicitTag (Py.Tag .context false 1)),
    Py.NamedType "v2AttrCert" (Rfc5652.AttributeCertificateV2.call.implicitTag (Py.Tag .context false 2)),
    Py.NamedType "other" (Rfc5652.OtherCertificateFormat.call.implicitTag (Py.Tag .context true 3))])

/-- rfc5652.py:286-287 `class CertificateSet(univ.SetOf)` -/
def CertificateSet__0 : Py.Obj :=
  Py.univ.SetOf

/-- rfc5652.py:290 `CertificateSet.componentType = ...` -/
def CertificateSet : Py.Obj :=
  Rfc5652.CertificateSet__0.setComponentTypeOf Rfc5652.CertificateChoices.call

/-- rfc5652.py:293-294 `class OtherRevocationInfoFormat(univ.Sequence)` -/
def OtherRevocationInfoFormat__0 : Py.Obj :=
  Py.univ.Sequence

/-- rfc5652.py:297-302 `OtherRevocationInfoFormat.componentType = ...` -/
def OtherRevocationInfoFormat : Py.Obj :=
  Rfc5652.OtherRevocationInfoFormat__0.setComponentType (Py.NamedTypes [
    Py.NamedType "otherRevInfoFormat" Py.univ.ObjectIdentifier.call,
    Py.NamedType "otherRevInfo" Py.univ.Any.call (openType := some (Py.OpenType "otherRevInfoFormat" (Py.map 11 "rfc5652.otherRevInfoFormatMap")))])

/-- rfc5652.py:305-306 `class RevocationInfoChoice(univ.Choice)` -/
def RevocationInfoChoice__0 : Py.Obj :=
  Py.univ.Choice

/-- rfc5652.py:309-313 `RevocationInfoChoice.componentType = ...` -/
def RevocationInfoChoice : Py.Obj :=
  Rfc5652.RevocationInfoChoice__0.setComponentType (Py.NamedTypes [
    Py.NamedType "crl" Rfc5280.CertificateList.call,
    Py.NamedType "other" (Rfc5652.OtherRevocationInfoFormat.call.implicitTag (Py.Tag .context true 1))])

/-- rfc5652.py:316-317 `class RevocationInfoChoices(univ.SetOf)` -/
def RevocationInfoChoices__0 : Py.Obj :=
  Py.univ.SetOf

/-- rfc5652.py:320 `RevocationInfoChoices.componentType = ...` -/
def RevocationInfoChoices : Py.Obj :=
  Rfc5652.RevocationInfoChoices__0.setComponentTypeOf Rfc5652.RevocationInfoChoice.call

/-- rfc5652.py:323-324 `class OriginatorInfo(univ.Sequence)` -/
def OriginatorInfo__0 : Py.Obj :=
  Py.univ.Sequence

/-- rfc5652.py:327-332 `OriginatorInfo.componentType = ...` -/
def OriginatorInfo : Py.Obj :=
  Rfc5652.OriginatorInfo__0.setComponentType (Py.NamedTypes [
    Py.OptionalNamedType "certs" (Rfc5652.CertificateSet.call.implicitTag (Py.Tag .context false 0)),
    Py.OptionalNamedType "crls" (Rfc5652.RevocationInfoChoices.call.implicitTag (Py.Tag .context false 1))])

/-- rfc5652.py:335-336 `class ContentType(univ.ObjectIdentifier)` -/
def ContentType : Py.Obj :=
  Py.univ.ObjectIdentifier

/-- rfc5652.py:339-340 `class EncryptedContent(univ.OctetString)` -/
def EncryptedContent : Py.Obj :=
  Py.univ.OctetString

/-- rfc5652.py:343-344 `class ContentEncryptionAlgorithmIdentifier(rfc5280.AlgorithmIdentifier)` -/
def ContentEncryptionAlgorithmIdentifier : Py.Obj :=
  Rfc5280.AlgorithmIdentifier

/-- rfc5652.py:347-348 `class EncryptedContentInfo(univ.Sequence)` -/
def EncryptedContentInfo__0 : Py.Obj :=
  Py.univ.Sequence

/-- rfc5652.py:351-356 `EncryptedContentInfo.componentType = ...` -/
def EncryptedContentInfo : Py.Obj :=
  Rfc5652.EncryptedContentInfo__0.setComponentType (Py.NamedTypes [
    Py.NamedType "contentType" Rfc5652.ContentType.call,
    Py.NamedType "contentEncryptionAlgorithm" Rfc5652.ContentEncryptionAlgorithmIdentifier.call,
    Py.OptionalNamedType "encryptedContent" (Rfc5652.EncryptedContent.call.implicitTag (Py.Tag .context false 0))])

/-- rfc5652.py:359-360 `class UnprotectedAttributes(univ.SetOf)` -/
def UnprotectedAttributes__0 : Py.Obj :=
  Py.univ.SetOf

/-- rfc5652.py:363 `UnprotectedAttributes.componentType = ...` -/
def UnprotectedAttributes__1 : Py.Obj :=
  Rfc5652.UnprotectedAttributes__0.setComponentTypeOf Rfc5652.Attribute.call

/-- rfc5652.py:364 `UnprotectedAttributes.sizeSpec = ...` -/
def UnprotectedAttributes : Py.Obj :=
  Rfc5652.UnprotectedAttributes__1.setSizeSpec (Py.ValueSizeConstraint (.fin 1) Rfc5652.MAX)

/-- rfc5652.py:367-368 `class KeyEncryptionAlgorithmIdentifier(rfc5280.AlgorithmIdentifier)` -/
def KeyEncryptionAlgorithmIdentifier : Py.Obj :=
  Rfc5280.AlgorithmIdentifier

/-- rfc5652.py:371-372 `class KEKIdentifier(univ.Sequence)` -/
def KEKIdentifier__0 : Py.Obj :=
  Py.univ.Sequence

/-- rfc5652.py:375-379 `KEKIdentifier.componentType = ...` -/
def KEKIdentifier : Py.Obj :=
  Rfc5652.KEKIdentifier__0.setComponentType (Py.NamedTypes [
    Py.NamedType "keyIdentifier" Py.univ.OctetString.call,
    Py.OptionalNamedType "date" Py.useful.GeneralizedTime.call,
    Py.OptionalNamedType "other" Rfc5652.OtherKeyAttribute.call])

/-- rfc5652.py:382-383 `class KEKRecipientInfo(univ.Sequence)` -/
def KEKRecipientInfo__0 : Py.Obj :=
  Py.univ.Sequence

/-- rfc5652.py:386-391 `KEKRecipientInfo.componentType = ...` -/
def KEKRecipientInfo : Py.Obj :=
  Rfc5652.KEKRecipientInfo__0.setComponentType (Py.NamedTypes [
    Py.NamedType "version" Rfc5652.CMSVersion.call,
    Py.NamedType "kekid" Rfc5652.KEKIdentifier.call,
    Py.NamedType "keyEncryptionAlgorithm" Rfc5652.KeyEncryptionAlgorithmIdentifier.call,
    Py.NamedType "encryptedKey" Rfc5652.EncryptedKey.call])

/-- rfc5652.py:394-395 `class KeyDerivationAlgorithmIdentifier(rfc5280.AlgorithmIdentifier)` -/
def KeyDerivationAlgorithmIdentifier : Py.Obj :=
  Rfc5280.AlgorithmIdentifier

/-- rfc5652.py:398-399 `class PasswordRecipientInfo(univ.Sequence)` -/
def PasswordRecipientInfo__0 : Py.Obj :=
  Py.univ.Sequence

/-- rfc5652.py:402-408 `PasswordRecipientInfo.componentType = ...` -/
def PasswordRecipientInfo : Py.Obj :=
  Rfc5652.PasswordRecipientInfo__0.setComponentType (Py.NamedTypes [
    Py.NamedType "version" Rfc5652.CMSVersion.call,
    Py.OptionalNamedType "keyDerivationAlgorithm" (Rfc5652.KeyDerivationAlgorithmIdentifier.call.implicitTag (Py.Tag .context false 0)),
    Py.NamedType "keyEncryptionAlgorithm" Rfc5652.KeyEncryptionAlgorithmIdentifier.call,
    Py.NamedType "encryptedKey" Rfc5652.EncryptedKey.call])

/-- rfc5652.py:411-412 `class RecipientIdentifier(univ.Choice)` -/
def RecipientIdentifier__0 : Py.Obj :=
  Py.univ.Choice

/-- rfc5652.py:415-419 `RecipientIdentifier.componentType = ...` -/
def RecipientIdentifier : Py.Obj :=
  Rfc5652.RecipientIdentifier__0.setComponentType (Py.NamedTypes [
    Py.NamedType "issuerAndSerialNumber" Rfc5652.IssuerAndSerialNumber.call,
    Py.NamedType "subjectKeyIdentifier" (Rfc5652.SubjectKeyIdentifier.call.implicitTag (Py.Tag .context false 0))])

/-- rfc5652.py:422-423 `class KeyTransRecipientInfo(univ.Sequence)` -/
def KeyTransRecipientInfo__0 : Py.Obj :=
  Py.univ.Sequence

/-- rfc5652.py:426-431 `KeyTransRecipientInfo.componentType = ...` -/
def KeyTransRecipientInfo : Py.Obj :=
  Rfc5652.KeyTransRecipientInfo__0.setComponentType (Py.NamedTypes [
    Py.NamedType "version" Rfc5652.CMSVersion.call,
    Py.NamedType "rid" Rfc5652.RecipientIdentifier.call,
    Py.NamedType "keyEncryptionAlgorithm" Rfc5652.KeyEncryptionAlgorithmIdentifier.call,
    Py.NamedType "encryptedKey" Rfc5652.EncryptedKey.call])

/-- rfc5652.py:434-435 `class UserKeyingMaterial(univ.OctetString)` -/
def UserKeyingMaterial : Py.Obj :=
  Py.univ.OctetString

/-- rfc5652.py:438-439 `class OriginatorPublicKey(univ.Sequence)` -/
def OriginatorPublicKey__0 : Py.Obj :=
  Py.univ.Sequence

/-- rfc5652.py:442-445 `OriginatorPublicKey.componentType = ...` -/
def OriginatorPublicKey : Py.Obj :=
  Rfc5652.OriginatorPublicKey__0.setComponentType (Py.NamedTypes [
    Py.NamedType "algorithm" Rfc5280.AlgorithmIdentifier.call,
    Py.NamedType "publicKey" Py.univ.BitString.call])

/-- rfc5652.py:448-449 `class OriginatorIdentifierOrKey(univ.Choice)` -/
def OriginatorIdentifierOrKey__0 : Py.Obj :=
  Py.univ.Choice

/-- rfc5652.py:452-458 `OriginatorIdentifierOrKey.componentType = ...` -/
def OriginatorIdentifierOrKey : Py.Obj :=
  Rfc5652.OriginatorIdentifierOrKey__0.setComponentType (Py.NamedTypes [
    Py.NamedType "issuerAndSerialNumber" Rfc5652.IssuerAndSerialNumber.call,
    Py.NamedType "subjectKeyIdentifier" (Rfc5652.SubjectKeyIdentifier.call.implicitTag (Py.Tag .context false 0)),
    Py.NamedType "originatorKey" (Rfc5652.OriginatorPublicKey.call.implicitTag (Py.Tag .context true 1))])

/-- rfc5652.py:461-462 `class KeyAgreeRecipientInfo(univ.Sequence)` -/
def KeyAgreeRecipientInfo__0 : Py.Obj :=
  Py.univ.Sequence

/-- rfc5652.py:465-473 `KeyAgreeRecipientInfo.componentType = ...` -/
def KeyAgreeRecipientInfo : Py.Obj :=
  Rfc5652.KeyAgreeRecipientInfo__0.setComponentType (Py.NamedTypes [
    Py.NamedType "version" Rfc5652.CMSVersion.call,
    Py.NamedType "originator" (Rfc5652.OriginatorIdentifierOrKey.call.explicitTag (Py.Tag .context true 0)),
    Py.OptionalNamedType "ukm" (Rfc5652.UserKeyingMaterial.call.explicitTag (Py.Tag .context false 1)),
    Py.NamedType "keyEncryptionAlgorithm" Rfc5652.KeyEncryptionAlgorithmIdentifier.call,
    Py.NamedType "recipientEncryptedKeys" Rfc5652.RecipientEncryptedKeys.call])

/-- rfc5652.py:476-477 `class OtherRecipientInfo(univ.Sequence)` -/
def OtherRecipientInfo__0 : Py.Obj :=
  Py.univ.Sequence

/-- rfc5652.py:480-485 `OtherRecipientInfo.componentType = ...` -/
def OtherRecipientInfo : Py.Obj :=
  Rfc5652.OtherRecipientInfo__0.setComponentType (Py.NamedTypes [
    Py.NamedType "oriType" Py.univ.ObjectIdentifier.call,
    Py.NamedType "oriValue" Py.univ.Any.call (openType := some (Py.OpenType "oriType" (Py.map 12 "rfc5652.otherRecipientInfoMap")))])

/-- rfc5652.py:488-489 `class RecipientInfo(univ.Choice)` -/
def RecipientInfo__0 : Py.Obj :=
  Py.univ.Choice

/-- rfc5652.py:492-502 `RecipientInfo.componentType = ...` -/
def RecipientInfo : Py.Obj :=
  Rfc5652.RecipientInfo__0.setComponentType (Py.NamedTypes [
    Py.NamedType "ktri" Rfc5652.KeyTransRecipientInfo.call,
    Py.NamedType "kari" (Rfc5652.KeyAgreeRecipientInfo.call.implicitTag (Py.Tag .context true 1)),
    Py.NamedType "kekri" (Rfc5652.KEKRecipientInfo.call.implicitTag (Py.Tag .context true 2)),
    Py.NamedType "pwri" (Rfc5652.PasswordRecipientInfo.call.implicitTag (Py.Tag .context true 3)),
    Py.NamedType "ori" (Rfc5652.OtherRecipientInfo.call.implicitTag (Py.Tag .context true 4))])

/-- rfc5652.py:505-506 `class RecipientInfos(univ.SetOf)` -/
def RecipientInfos__0 : Py.Obj :=
  Py.univ.SetOf

/-- rfc5652.py:509 `RecipientInfos.componentType = ...` -/
def RecipientInfos__1 : Py.Obj :=
  Rfc5652.RecipientInfos__0.setComponentTypeOf Rfc5652.RecipientInfo.call

/-- rfc5652.py:510 `RecipientInfos.sizeSpec = ...` -/
def RecipientInfos : Py.Obj :=
  Rfc5652.RecipientInfos__1.setSizeSpec (Py.ValueSizeConstraint (.fin 1) Rfc5652.MAX)

/-- rfc5652.py:513-514 `class EnvelopedData(univ.Sequence)` -/
def EnvelopedData__0 : Py.Obj :=
  Py.univ.Sequence

/-- rfc5652.py:517-525 `EnvelopedData.componentType = ...` -/
def EnvelopedData : Py.Obj :=
  Rfc5652.EnvelopedData__0.setComponentType (Py.NamedTypes [
    Py.NamedType "version" Rfc5652.CMSVersion.call,
    Py.OptionalNamedType "originatorInfo" (Rfc5652.OriginatorInfo.call.implicitTag (Py.Tag .context true 0)),
    Py.NamedType "recipientInfos" Rfc5652.RecipientInfos.call,
    Py.NamedType "encryptedContentInfo" Rfc5652.EncryptedContentInfo.call,
    Py.OptionalNamedType "unprotectedAttrs" (Rfc5652.UnprotectedAttributes.call.implicitTag (Py.Tag .context false 1))])

/-- rfc5652.py:528-529 `class DigestAlgorithmIdentifier(rfc5280.AlgorithmIdentifier)` -/
def DigestAlgorithmIdentifier : Py.Obj :=
  Rfc5280.AlgorithmIdentifier

/-- rfc5652.py:532 -/
def id_ct_contentInfo : Py.Obj :=
  (Rfc5652._buildOid [.num 1, .num 2, .num 840, .num 113549, .num 1, .num 9, .num 16, .num 1, .num 6])

/-- rfc5652.py:534 -/
def id_digestedData : Py.Obj :=
  (Rfc5652._buildOid [.num 1, .num 2, .num 840, .num 113549, .num 1, .num 7, .num 5])

/-- rfc5652.py:537-538 `class EncryptedData(univ.Sequence)` -/
def EncryptedData__0 : Py.Obj :=
  Py.univ.Sequence

/-- rfc5652.py:541-546 `EncryptedData.componentType = ...` -/
def EncryptedData : Py.Obj :=
  Rfc5652.EncryptedData__0.setComponentType (Py.NamedTypes [
    Py.NamedType "version" Rfc5652.CMSVersion.call,
    Py.NamedType "encryptedContentInfo" Rfc5652.EncryptedContentInfo.call,
    Py.OptionalNamedType "unprotectedAttrs" (Rfc5652.UnprotectedAttributes.call.implicitTag (Py.Tag .context false 1))])

/-- rfc5652.py:548 -/
def id_messageDigest : Py.Obj :=
  (Rfc5652._buildOid [.num 1, .num 2, .num 840, .num 113549, .num 1, .num 9, .num 4])

/-- rfc5652.py:550 -/
def id_signedData : Py.Obj :=
  (Rfc5652._buildOid [.num 1, .num 2, .num 840, .num 113549, .num 1, .num 7, .num 2])

/-- rfc5652.py:553-554 `class MessageAuthenticationCodeAlgorithm(rfc5280.AlgorithmIdentifier)` -/
def MessageAuthenticationCodeAlgorithm : Py.Obj :=
  Rfc5280.AlgorithmIdentifier

/-- rfc5652.py:557-558 `class UnsignedAttributes(univ.SetOf)` -/
def UnsignedAttributes__0 : Py.Obj :=
  Py.univ.SetOf

/-- rfc5652.py:561 `UnsignedAttributes.componentType = ...` -/
def UnsignedAttributes__1 : Py.Obj :=
  Rfc5652.UnsignedAttributes__0.setComponentTypeOf Rfc5652.Attribute.call

/-- rfc5652.py:562 `UnsignedAttributes.sizeSpec = ...` -/
def UnsignedAttributes : Py.Obj :=
  Rfc5652.UnsignedAttributes__1.setSizeSpec (Py.ValueSizeConstraint (.fin 1) Rfc5652.MAX)

/-- rfc5652.py:565-566 `class SignerIdentifier(univ.Choice)` -/
def SignerIdentifier__0 : Py.Obj :=
  Py.univ.Choice

/-- rfc5652.py:569-573 `SignerIdentifier.componentType = ...` -/
def SignerIdentifier : Py.Obj :=
  Rfc5652.SignerIdentifier__0.setComponentType (Py.NamedTypes [
    Py.NamedType "issuerAndSerialNumber" Rfc5652.IssuerAndSerialNumber.call,
    Py.NamedType "subjectKeyIdentifier" (Rfc5652.SubjectKeyIdentifier.call.implicitTag (Py.Tag .context false 0))])

/-- rfc5652.py:576-577 `class SignerInfo(univ.Sequence)` -/
def SignerInfo__0 : Py.Obj :=
  Py.univ.Sequence

/-- rfc5652.py:580-590 `SignerInfo.componentType = ...` -/
def SignerInfo : Py.Obj :=
  Rfc5652.SignerInfo__0.setComponentType (Py.NamedTypes [
    Py.NamedType "version" Rfc5652.CMSVersion.call,
    Py.NamedType "sid" Rfc5652.SignerIdentifier.call,
    Py.NamedType "digestAlgorithm" Rfc5652.DigestAlgorithmIdentifier.call,
    Py.OptionalNamedType "signedAttrs" (Rfc5652.SignedAttributes.call.implicitTag (Py.Tag .context false 0)),
    Py.NamedType "signatureAlgorithm" Rfc5652.SignatureAlgorithmIdentifier.call,
    Py.NamedType "signature" Rfc5652.SignatureValue.call,
    Py.OptionalNamedType "unsignedAttrs" (Rfc5652.UnsignedAttributes.call.implicitTag (Py.Tag .context false 1))])

/-- rfc5652.py:593-594 `class SignerInfos(univ.SetOf)` -/
def SignerInfos__0 : Py.Obj :=
  Py.univ.SetOf

/-- rfc5652.py:597 `SignerInfos.componentType = ...` -/
def SignerInfos : Py.Obj :=
  Rfc5652.SignerInfos__0.setComponentTypeOf Rfc5652.SignerInfo.call

/-- rfc5652.py:600-601 `class Countersignature(SignerInfo)` -/
def Countersignature : Py.Obj :=
  Rfc5652.SignerInfo

/-- rfc5652.py:604-605 `class ContentInfo(univ.Sequence)` -/
def ContentInfo__0 : Py.Obj :=
  Py.univ.Sequence

/-- rfc5652.py:608-613 `ContentInfo.componentType = ...` -/
def ContentInfo : Py.Obj :=
  Rfc5652.ContentInfo__0.setComponentType (Py.NamedTypes [
    Py.NamedType "contentType" Rfc5652.ContentType.call,
    Py.NamedType "content" (Py.univ.Any.call.explicitTag (Py.Tag .context false 0)) (openType := some (Py.OpenType "contentType" (Py.map 13 "rfc5652.cmsContentTypesMap")))])

/-- rfc5652.py:616-617 `class EncapsulatedContentInfo(univ.Sequence)` -/
def EncapsulatedContentInfo__0 : Py.Obj :=
  Py.univ.Sequence

/-- rfc5652.py:620-624 `EncapsulatedContentInfo.componentType = ...` -/
def EncapsulatedContentInfo : Py.Obj :=
  Rfc5652.EncapsulatedContentInfo__0.setComponentType (Py.NamedTypes [
    Py.NamedType "eContentType" Rfc5652.ContentType.call,
    Py.OptionalNamedType "eContent" (Py.univ.OctetString.call.explicitTag (Py.Tag .context false 0))])

/-- rfc5652.py:626 -/
def id_countersignature : Py.Obj :=
  (Rfc5652._buildOid [.num 1, .num 2, .num 840, .num 113549, .num 1, .num 9, .num 6])

/-- rfc5652.py:628 -/
def id_data : Py.Obj :=
  (Rfc5652._buildOid [.num 1, .num 2, .num 840, .num 113549, .num 1, .num 7, .num 1])

/-- rfc5652.py:631-632 `class MessageDigest(univ.OctetString)` -/
def MessageDigest : Py.Obj :=
  Py.univ.OctetString

/-- rfc5652.py:635-636 `class AuthAttributes(univ.SetOf)` -/
def AuthAttributes__0 : Py.Obj :=
  Py.univ.SetOf

/-- rfc5652.py:639 `AuthAttributes.componentType = ...` -/
def AuthAttributes__1 : Py.Obj :=
  Rfc5652.AuthAttributes__0.setComponentTypeOf Rfc5652.Attribute.call

/-- rfc5652.py:640 `AuthAttributes.sizeSpec = ...` -/
def AuthAttributes : Py.Obj :=
  Rfc5652.AuthAttributes__1.setSizeSpec (Py.ValueSizeConstraint (.fin 1) Rfc5652.MAX)

/-- rfc5652.py:643-644 `class Time(univ.Choice)` -/
def Time__0 : Py.Obj :=
  Py.univ.Choice

/-- rfc5652.py:647-650 `Time.componentType = ...` -/
def Time : Py.Obj :=
  Rfc5652.Time__0.setComponentType (Py.NamedTypes [
    Py.NamedType "utcTime" Py.useful.UTCTime.call,
    Py.NamedType "generalTime" Py.useful.GeneralizedTime.call])

/-- rfc5652.py:653-654 `class AuthenticatedData(univ.Sequence)` -/
def AuthenticatedData__0 : Py.Obj :=
  Py.univ.Sequence

/-- rfc5652.py:657-671 `AuthenticatedData.componentType = ...` -/
def AuthenticatedData : Py.Obj :=
  Rfc5652.AuthenticatedData__0.setComponentType (Py.NamedTypes [
    Py.NamedType "version" Rfc5652.CMSVersion.call,
    Py.OptionalNamedType "originatorInfo" (Rfc5652.OriginatorInfo.call.implicitTag (Py.Tag .context true 0)),
    Py.NamedType "recipientInfos" Rfc5652.RecipientInfos.call,
    Py.NamedType "macAlgorithm" Rfc5652.MessageAuthenticationCodeAlgorithm.call,
    Py.OptionalNamedType "digestAlgorithm" (Rfc5652.DigestAlgorithmIdentifier.call.implicitTag (Py.Tag .context false 1)),
    Py.NamedType "encapContentInfo" Rfc5652.EncapsulatedContentInfo.call,
    Py.OptionalNamedType "authAttrs" (Rfc5652.AuthAttributes.call.implicitTag (Py.Tag .context false 2)),
    Py.NamedType "mac" Rfc5652.MessageAuthenticationCode.call,
    Py.OptionalNamedType "unauthAttrs" (Rfc5652.UnauthAttributes.call.implicitTag (Py.Tag .context false 3))])

/-- rfc5652.py:673 -/
def id_contentType : Py.Obj :=
  (Rfc5652._buildOid [.num 1, .num 2, .num 840, .num 113549, .num 1, .num 9, .num 3])

/-- rfc5652.py:676-677 `class ExtendedCertificateOrCertificate(univ.Choice)` -/
def ExtendedCertificateOrCertificate__0 : Py.Obj :=
  Py.univ.Choice

/-- rfc5652.py:680-684 `ExtendedCertificateOrCertificate.componentType = ...` -/
def ExtendedCertificateOrCertificate : Py.Obj :=
  Rfc5652.ExtendedCertificateOrCertificate__0.setComponentType (Py.NamedTypes [
    Py.NamedType "certificate" Rfc5280.Certificate.call,
    Py.NamedType "extendedCertificate" (Rfc5652.ExtendedCertificate.call.implicitTag (Py.Tag .context true 0))])

/-- rfc5652.py:687-688 `class Digest(univ.OctetString)` -/
def Digest : Py.Obj :=
  Py.univ.OctetString

/-- rfc5652.py:691-692 `class DigestedData(univ.Sequence)` -/
def DigestedData__0 : Py.Obj :=
  Py.univ.Sequence

/-- rfc5652.py:695-700 `DigestedData.componentType = ...` -/
def DigestedData : Py.Obj :=
  Rfc5652.DigestedData__0.setComponentType (Py.NamedTypes [
    Py.NamedType "version" Rfc5652.CMSVersion.call,
    Py.NamedType "digestAlgorithm" Rfc5652.DigestAlgorithmIdentifier.call,
    Py.NamedType "encapContentInfo" Rfc5652.EncapsulatedContentInfo.call,
    Py.NamedType "digest" Rfc5652.Digest.call])

/-- rfc5652.py:702 -/
def id_envelopedData : Py.Obj :=
  (Rfc5652._buildOid [.num 1, .num 2, .num 840, .num 113549, .num 1, .num 7, .num 3])

/-- rfc5652.py:705-706 `class DigestAlgorithmIdentifiers(univ.SetOf)` -/
def DigestAlgorithmIdentifiers__0 : Py.Obj :=
  Py.univ.SetOf

/-- rfc5652.py:709 `DigestAlgorithmIdentifiers.componentType = ...` -/
def DigestAlgorithmIdentifiers : Py.Obj :=
  Rfc5652.DigestAlgorithmIdentifiers__0.setComponentTypeOf Rfc5652.DigestAlgorithmIdentifier.call

/-- rfc5652.py:712-713 `class SignedData(univ.Sequence)` -/
def SignedData__0 : Py.Obj :=
  Py.univ.Sequence

/-- rfc5652.py:716-725 `SignedData.componentType = ...` -/
def SignedData : Py.Obj :=
  Rfc5652.SignedData__0.setComponentType (Py.NamedTypes [
    Py.NamedType "version" Rfc5652.CMSVersion.call,
    Py.NamedType "digestAlgorithms" Rfc5652.DigestAlgorithmIdentifiers.call,
    Py.NamedType "encapContentInfo" Rfc5652.EncapsulatedContentInfo.call,
    Py.OptionalNamedType "certificates" (Rfc5652.CertificateSet.call.implicitTag (Py.Tag .context false 0)),
    Py.OptionalNamedType "crls" (Rfc5652.RevocationInfoChoices.call.implicitTag (Py.Tag .context false 1)),
    Py.NamedType "signerInfos" Rfc5652.SignerInfos.call])

/-- rfc5652.py:727 -/
def id_signingTime : Py.Obj :=
  (Rfc5652._buildOid [.num 1, .num 2, .num 840, .num 113549, .num 1, .num 9, .num 5])

/-- rfc5652.py:730-731 `class SigningTime(Time)` -/
def SigningTime : Py.Obj :=
  Rfc5652.Time

/-- rfc5652.py:734 -/
def id_ct_authData : Py.Obj :=
  (Rfc5652._buildOid [.num 1, .num 2, .num 840, .num 113549, .num 1, .num 9, .num 16, .num 1, .num 2])

/-- rfc5652.py:739-747 -/
def _cmsContentTypesMapUpdate : Py.Entries :=
  [(Rfc5652.id_ct_contentInfo.value, Rfc5652.ContentInfo.call.ty),
    (Rfc5652.id_data.value, Py.univ.OctetString.call.ty),
    (Rfc5652.id_signedData.value, Rfc5652.SignedData.call.ty),
    (Rfc5652.id_envelopedData.value, Rfc5652.EnvelopedData.call.ty),
    (Rfc5652.id_digestedData.value, Rfc5652.DigestedData.call.ty),
    (Rfc5652.id_encryptedData.value, Rfc5652.EncryptedData.call.ty),
    (Rfc5652.id_ct_authData.value, Rfc5652.AuthenticatedData.call.ty)]

/-- rfc5652.py:754-759 -/
def _cmsAttributesMapUpdate : Py.Entries :=
  [(Rfc5652.id_contentType.value, Rfc5652.ContentType.call.ty),
    (Rfc5652.id_messageDigest.value, Rfc5652.MessageDigest.call.ty),
    (Rfc5652.id_signingTime.value, Rfc5652.SigningTime.call.ty),
    (Rfc5652.id_countersignature.value, Rfc5652.Countersignature.call.ty)]

/-- Modules of this package imported by rfc5652.py, in textual order. -/
def imports : List Py.Ident :=
  [(Py.mod 14 "rfc3281"), (Py.mod 15 "rfc5280")]

/-- Dictionary operations executed when rfc5652.py is imported, in program order. -/
def effects : List Py.Effect :=
  [.create (Py.map 13 "rfc5652.cmsContentTypesMap") Rfc5652.cmsContentTypesMap /- rfc5652.py:41 -/,
   .create (Py.map 8 "rfc5652.cmsAttributesMap") Rfc5652.cmsAttributesMap /- rfc5652.py:43 -/,
   .create (Py.map 9 "rfc5652.otherKeyAttributesMap") Rfc5652.otherKeyAttributesMap /- rfc5652.py:45 -/,
   .create (Py.map 10 "rfc5652.otherCertFormatMap") Rfc5652.otherCertFormatMap /- rfc5652.py:47 -/,
   .create (Py.map 11 "rfc5652.otherRevInfoFormatMap") Rfc5652.otherRevInfoFormatMap /- rfc5652.py:49 -/,
   .create (Py.map 12 "rfc5652.otherRecipientInfoMap") Rfc5652.otherRecipientInfoMap /- rfc5652.py:51 -/,
   .create (Py.map 84 "rfc5652._cmsContentTypesMapUpdate") Rfc5652._cmsContentTypesMapUpdate /- rfc5652.py:739-747 -/,
   .update (Py.map 13 "rfc5652.cmsContentTypesMap") Rfc5652._cmsContentTypesMapUpdate /- rfc5652.py:749 -/,
   .create (Py.map 85 "rfc5652._cmsAttributesMapUpdate") Rfc5652._cmsAttributesMapUpdate /- rfc5652.py:754-759 -/,
   .update (Py.map 8 "rfc5652.cmsAttributesMap") Rfc5652._cmsAttributesMapUpdate /- rfc5652.py:761 -/]

/-- ASN.1 types rfc5652.py binds at module level (final version of each name), plus nested classes. -/
def classes : List (String × Py.Obj) :=
  [("rfc5652.AttCertVersionV1", Rfc5652.AttCertVersionV1),
   ("rfc5652.AttributeCertificateInfoV1", Rfc5652.AttributeCertificateInfoV1),
   ("rfc5652.AttributeCertificateV1", Rfc5652.AttributeCertificateV1),
   ("rfc5652.AttributeValue", Rfc5652.AttributeValue),
   ("rfc5652.Attribute", Rfc5652.Attribute),
   ("rfc5652.SignedAttributes", Rfc5652.SignedAttributes),
   ("rfc5652.AttributeCertificateV2", Rfc5652.AttributeCertificateV2),
   ("rfc5652.OtherKeyAttribute", Rfc5652.OtherKeyAttribute),
   ("rfc5652.UnauthAttributes", Rfc5652.UnauthAttributes),
   ("rfc5652.SignatureValue", Rfc5652.SignatureValue),
   ("rfc5652.IssuerAndSerialNumber", Rfc5652.IssuerAndSerialNumber),
   ("rfc5652.SubjectKeyIdentifier", Rfc5652.SubjectKeyIdentifier),
   ("rfc5652.RecipientKeyIdentifier", Rfc5652.RecipientKeyIdentifier),
   ("rfc5652.KeyAgreeRecipientIdentifier", Rfc5652.KeyAgreeRecipientIdentifier),
   ("rfc5652.EncryptedKey", Rfc5652.EncryptedKey),
   ("rfc5652.RecipientEncryptedKey", Rfc5652.RecipientEncryptedKey),
   ("rfc5652.RecipientEncryptedKeys", Rfc5652.RecipientEncryptedKeys),
   ("rfc5652.MessageAuthenticationCode", Rfc5652.MessageAuthenticationCode),
   ("rfc5652.CMSVersion", Rfc5652.CMSVersion),
   ("rfc5652.OtherCertificateFormat", Rfc5652.OtherCertificateFormat),
   ("rfc5652.ExtendedCertificateInfo", Rfc5652.ExtendedCertificateInfo),
   ("rfc5652.Signature", Rfc5652.Signature),
   ("rfc5652.SignatureAlgorithmIdentifier", Rfc5652.SignatureAlgorithmIdentifier),
   ("rfc5652.ExtendedCertificate", Rfc5652.ExtendedCertificate),
   ("rfc5652.CertificateChoices", Rfc5652.CertificateChoices),
   ("rfc5652.CertificateSet", Rfc5652.CertificateSet),
   ("rfc5652.OtherRevocationInfoFormat", Rfc5652.OtherRevocationInfoFormat),
   ("rfc5652.RevocationInfoChoice", Rfc5652.RevocationInfoChoice),
   ("rfc5652.RevocationInfoChoices", Rfc5652.RevocationInfoChoices),
   ("rfc5652.OriginatorInfo", Rfc5652.OriginatorInfo),
   ("rfc5652.ContentType", Rfc5652.ContentType),
   ("rfc5652.EncryptedContent", Rfc5652.EncryptedContent),
   ("rfc5652.ContentEncryptionAlgorithmIdentifier", Rfc5652.ContentEncryptionAlgorithmIdentifier),
   ("rfc5652.EncryptedContentInfo", Rfc5652.EncryptedContentInfo),
   ("rfc5652.UnprotectedAttributes", Rfc5652.UnprotectedAttributes),
   ("rfc5652.KeyEncryptionAlgorithmIdentifier", Rfc5652.KeyEncryptionAlgorithmIdentifier),
   ("rfc5652.KEKIdentifier", Rfc5652.KEKIdentifier),
   ("rfc5652.KEKRecipientInfo", Rfc5652.KEKRecipientInfo),
   ("rfc5652.KeyDerivationAlgorithmIdentifier", Rfc5652.KeyDerivationAlgorithmIdentifier),
   ("rfc5652.PasswordRecipientInfo", Rfc5652.PasswordRecipientInfo),
   ("rfc5652.RecipientIdentifier", Rfc5652.RecipientIdentifier),
   ("rfc5652.KeyTransRecipientInfo", Rfc5652.KeyTransRecipientInfo),
   ("rfc5652.UserKeyingMaterial", Rfc5652.UserKeyingMaterial),
   ("rfc5652.OriginatorPublicKey", Rfc5652.OriginatorPublicKey),
   ("rfc5652.OriginatorIdentifierOrKey", Rfc5652.OriginatorIdentifierOrKey),
   ("rfc5652.KeyAgreeRecipientInfo", Rfc5652.KeyAgreeRecipientInfo),
   ("rfc5652.OtherRecipientInfo", Rfc5652.OtherRecipientInfo),
   ("rfc5652.RecipientInfo", Rfc5652.RecipientInfo),
   ("rfc5652.RecipientInfos", Rfc5652.RecipientInfos),
   ("rfc5652.EnvelopedData", Rfc5652.EnvelopedData),
   ("rfc5652.DigestAlgorithmIdentifier", Rfc5652.DigestAlgorithmIdentifier),
   ("rfc5652.EncryptedData", Rfc5652.EncryptedData),
   ("rfc5652.MessageAuthenticationCodeAlgorithm", Rfc5652.MessageAuthenticationCodeAlgorithm),
   ("rfc5652.UnsignedAttributes", Rfc5652.UnsignedAttributes),
   ("rfc5652.SignerIdentifier", Rfc5652.SignerIdentifier),
   ("rfc5652.SignerInfo", Rfc5652.SignerInfo),
   ("rfc5652.SignerInfos", Rfc5652.SignerInfos),
   ("rfc5652.Countersignature", Rfc5652.Countersignature),
   ("rfc5652.ContentInfo", Rfc5652.ContentInfo),
   ("rfc5652.EncapsulatedContentInfo", Rfc5652.EncapsulatedContentInfo),
   ("rfc5652.MessageDigest", Rfc5652.MessageDigest),
   ("rfc5652.AuthAttributes", Rfc5652.AuthAttributes),
   ("rfc5652.Time", Rfc5652.Time),
   ("rfc5652.AuthenticatedData", Rfc5652.AuthenticatedData),
   ("rfc5652.ExtendedCertificateOrCertificate", Rfc5652.ExtendedCertificateOrCertificate),
   ("rfc5652.Digest", Rfc5652.Digest),
   ("rfc5652.DigestedData", Rfc5652.DigestedData),
   ("rfc5652.DigestAlgorithmIdentifiers", Rfc5652.DigestAlgorithmIdentifiers),
   ("rfc5652.SignedData", Rfc5652.SignedData),
   ("rfc5652.SigningTime", Rfc5652.SigningTime)]

/-- pyasn1 instances rfc5652.py binds at module level. -/
def objects : List (String × Py.Obj) :=
  [("rfc5652.id_encryptedData", Rfc5652.id_encryptedData),
   ("rfc5652.id_ct_contentInfo", Rfc5652.id_ct_contentInfo),
   ("rfc5652.id_digestedData", Rfc5652.id_digestedData),
   ("rfc5652.id_messageDigest", Rfc5652.id_messageDigest),
   ("rfc5652.id_signedData", Rfc5652.id_signedData),
   ("rfc5652.id_countersignature", Rfc5652.id_countersignature),
   ("rfc5652.id_data", Rfc5652.id_data),
   ("rfc5652.id_contentType", Rfc5652.id_contentType),
   ("rfc5652.id_envelopedData", Rfc5652.id_envelopedData),
   ("rfc5652.id_signingTime", Rfc5652.id_signingTime),
   ("rfc5652.id_ct_authData", Rfc5652.id_ct_authData)]

/-- pyasn1 instances rfc5652.py fills in by item assignment. -/
def protos : List (String × Py.Proto) :=
  []

/-- Every place of rfc5652.py that instantiates a class of the package: where, the class as it is
at that point, and the class as it is when the import has finished. -/
def snapshots : List Py.Snapshot :=
  [⟨"rfc5652.py:68", Rfc5652.AttCertVersionV1, Rfc5652.AttCertVersionV1⟩,
   ⟨"rfc5652.py:72", Rfc3281.IssuerSerial, Rfc3281.IssuerSerial⟩,
   ⟨"rfc5652.py:73", Rfc5280.GeneralNames, Rfc5280.GeneralNames⟩,
   ⟨"rfc5652.py:77", Rfc5280.GeneralNames, Rfc5280.GeneralNames⟩,
   ⟨"rfc5652.py:78", Rfc5280.AlgorithmIdentifier, Rfc5280.AlgorithmIdentifier⟩,
   ⟨"rfc5652.py:79", Rfc5280.CertificateSerialNumber, Rfc5280.CertificateSerialNumber⟩,
   ⟨"rfc5652.py:80", Rfc3281.AttCertValidityPeriod, Rfc3281.AttCertValidityPeriod⟩,
   ⟨"rfc5652.py:81", Rfc5280.Attribute, Rfc5280.Attribute⟩,
   ⟨"rfc5652.py:82", Rfc5280.UniqueIdentifier, Rfc5280.UniqueIdentifier⟩,
   ⟨"rfc5652.py:83", Rfc5280.Extensions, Rfc5280.Extensions⟩,
   ⟨"rfc5652.py:92", Rfc5652.AttributeCertificateInfoV1, Rfc5652.AttributeCertificateInfoV1⟩,
   ⟨"rfc5652.py:93", Rfc5280.AlgorithmIdentifier, Rfc5280.AlgorithmIdentifier⟩,
   ⟨"rfc5652.py:108", Rfc5652.AttributeValue, Rfc5652.AttributeValue⟩,
   ⟨"rfc5652.py:118", Rfc5652.Attribute, Rfc5652.Attribute⟩,
   ⟨"rfc5652.py:142", Rfc5652.Attribute, Rfc5652.Attribute⟩,
   ⟨"rfc5652.py:157", Rfc5280.Name, Rfc5280.Name⟩,
   ⟨"rfc5652.py:158", Rfc5280.CertificateSerialNumber, Rfc5280.CertificateSerialNumber⟩,
   ⟨"rfc5652.py:171", Rfc5652.SubjectKeyIdentifier, Rfc5652.SubjectKeyIdentifier⟩,
   ⟨"rfc5652.py:173", Rfc5652.OtherKeyAttribute, Rfc5652.OtherKeyAttribute⟩,
   ⟨"rfc5652.py:182", Rfc5652.IssuerAndSerialNumber, Rfc5652.IssuerAndSerialNumber⟩,
   ⟨"rfc5652.py:183", Rfc5652.RecipientKeyIdentifier, Rfc5652.RecipientKeyIdentifier⟩,
   ⟨"rfc5652.py:197", Rfc5652.KeyAgreeRecipientIdentifier, Rfc5652.KeyAgreeRecipientIdentifier⟩,
   ⟨"rfc5652.py:198", Rfc5652.EncryptedKey, Rfc5652.EncryptedKey⟩,
   ⟨"rfc5652.py:206", Rfc5652.RecipientEncryptedKey, Rfc5652.RecipientEncryptedKey⟩,
   ⟨"rfc5652.py:244", Rfc5652.CMSVersion, Rfc5652.CMSVersion⟩,
   ⟨"rfc5652.py:245", Rfc5280.Certificate, Rfc5280.Certificate⟩,
   ⟨"rfc5652.py:246", Rfc5652.UnauthAttributes, Rfc5652.UnauthAttributes⟩,
   ⟨"rfc5652.py:263", Rfc5652.ExtendedCertificateInfo, Rfc5652.ExtendedCertificateInfo⟩,
   ⟨"rfc5652.py:264", Rfc5652.SignatureAlgorithmIdentifier, Rfc5652.SignatureAlgorithmIdentifier⟩,
   ⟨"rfc5652.py:265", Rfc5652.Signature, Rfc5652.Signature⟩,
   ⟨"rfc5652.py:274", Rfc5280.Certificate, Rfc5280.Certificate⟩,
   ⟨"rfc5652.py:275", Rfc5652.ExtendedCertificate, Rfc5652.ExtendedCertificate⟩,
   ⟨"rfc5652.py:277", Rfc5652.AttributeCertificateV1, Rfc5652.AttributeCertificateV1⟩,
   ⟨"rfc5652.py:279", Rfc5652.AttributeCertificateV2, Rfc5652.AttributeCertificateV2⟩,
   ⟨"rfc5652.py:281", Rfc5652.OtherCertificateFormat, Rfc5652.OtherCertificateFormat⟩,
   ⟨"rfc5652.py:290", Rfc5652.CertificateChoices, Rfc5652.CertificateChoices⟩,
   ⟨"rfc5652.py:310", Rfc5280.CertificateList, Rfc5280.CertificateList⟩,
   ⟨"rfc5652.py:311", Rfc5652.OtherRevocationInfoFormat, Rfc5652.OtherRevocationInfoFormat⟩,
   ⟨"rfc5652.py:320", Rfc5652.RevocationInfoChoice, Rfc5652.RevocationInfoChoice⟩,
   ⟨"rfc5652.py:328", Rfc5652.CertificateSet, Rfc5652.CertificateSet⟩,
   ⟨"rfc5652.py:330", Rfc5652.RevocationInfoChoices, Rfc5652.RevocationInfoChoices⟩,
   ⟨"rfc5652.py:352", Rfc5652.ContentType, Rfc5652.ContentType⟩,
   ⟨"rfc5652.py:353", Rfc5652.ContentEncryptionAlgorithmIdentifier, Rfc5652.ContentEncryptionAlgorithmIdentifier⟩,
   ⟨"rfc5652.py:354", Rfc5652.EncryptedContent, Rfc5652.EncryptedContent⟩,
   ⟨"rfc5652.py:363", Rfc5652.Attribute, Rfc5652.Attribute⟩,
   ⟨"rfc5652.py:378", Rfc5652.OtherKeyAttribute, Rfc5652.OtherKeyAttribute⟩,
   ⟨"rfc5652.py:387", Rfc5652.CMSVersion, Rfc5652.CMSVersion⟩,
   ⟨"rfc5652.py:388", Rfc5652.KEKIdentifier, Rfc5652.KEKIdentifier⟩,
   ⟨"rfc5652.py:389", Rfc5652.KeyEncryptionAlgorithmIdentifier, Rfc5652.KeyEncryptionAlgorithmIdentifier⟩,
   ⟨"rfc5652.py:390", Rfc5652.EncryptedKey, Rfc5652.EncryptedKey⟩,
   ⟨"rfc5652.py:403", Rfc5652.CMSVersion, Rfc5652.CMSVersion⟩,
   ⟨"rfc5652.py:404", Rfc5652.KeyDerivationAlgorithmIdentifier, Rfc5652.KeyDerivationAlgorithmIdentifier⟩,
   ⟨"rfc5652.py:406", Rfc5652.KeyEncryptionAlgorithmIdentifier, Rfc5652.KeyEncryptionAlgorithmIdentifier⟩,
   ⟨"rfc5652.py:407", Rfc5652.EncryptedKey, Rfc5652.EncryptedKey⟩,
   ⟨"rfc5652.py:416", Rfc5652.IssuerAndSerialNumber, Rfc5652.IssuerAndSerialNumber⟩,
   ⟨"rfc5652.py:417", Rfc5652.SubjectKeyIdentifier, Rfc5652.SubjectKeyIdentifier⟩,
   ⟨"rfc5652.py:427", Rfc5652.CMSVersion, Rfc5652.CMSVersion⟩,
   ⟨"rfc5652.py:428", Rfc5652.RecipientIdentifier, Rfc5652.RecipientIdentifier⟩,
   ⟨"rfc5652.py:429", Rfc5652.KeyEncryptionAlgorithmIdentifier, Rfc5652.KeyEncryptionAlgorithmIdentifier⟩,
   ⟨"rfc5652.py:430", Rfc5652.EncryptedKey, Rfc5652.EncryptedKey⟩,
   ⟨"rfc5652.py:443", Rfc5280.AlgorithmIdentifier, Rfc5280.AlgorithmIdentifier⟩,
   ⟨"rfc5652.py:453", Rfc5652.IssuerAndSerialNumber, Rfc5652.IssuerAndSerialNumber⟩,
   ⟨"rfc5652.py:454", Rfc5652.SubjectKeyIdentifier, Rfc5652.SubjectKeyIdentifier⟩,
   ⟨"rfc5652.py:456", Rfc5652.OriginatorPublicKey, Rfc5652.OriginatorPublicKey⟩,
   ⟨"rfc5652.py:466", Rfc5652.CMSVersion, Rfc5652.CMSVersion⟩,
   ⟨"rfc5652.py:467", Rfc5652.OriginatorIdentifierOrKey, Rfc5652.OriginatorIdentifierOrKey⟩,
   ⟨"rfc5652.py:469", Rfc5652.UserKeyingMaterial, Rfc5652.UserKeyingMaterial⟩,
   ⟨"rfc5652.py:471", Rfc5652.KeyEncryptionAlgorithmIdentifier, Rfc5652.KeyEncryptionAlgorithmIdentifier⟩,
   ⟨"rfc5652.py:472", Rfc5652.RecipientEncryptedKeys, Rfc5652.RecipientEncryptedKeys⟩,
   ⟨"rfc5652.py:493", Rfc5652.KeyTransRecipientInfo, Rfc5652.KeyTransRecipientInfo⟩,
   ⟨"rfc5652.py:494", Rfc5652.KeyAgreeRecipientInfo, Rfc5652.KeyAgreeRecipientInfo⟩,
   ⟨"rfc5652.py:496", Rfc5652.KEKRecipientInfo, Rfc5652.KEKRecipientInfo⟩,
   ⟨"rfc5652.py:498", Rfc5652.PasswordRecipientInfo, Rfc5652.PasswordRecipientInfo⟩,
   ⟨"rfc5652.py:500", Rfc5652.OtherRecipientInfo, Rfc5652.OtherRecipientInfo⟩,
   ⟨"rfc5652.py:509", Rfc5652.RecipientInfo, Rfc5652.RecipientInfo⟩,
   ⟨"rfc5652.py:518", Rfc5652.CMSVersion, Rfc5652.CMSVersion⟩,
   ⟨"rfc5652.py:519", Rfc5652.OriginatorInfo, Rfc5652.OriginatorInfo⟩,
   ⟨"rfc5652.py:521", Rfc5652.RecipientInfos, Rfc5652.RecipientInfos⟩,
   ⟨"rfc5652.py:522", Rfc5652.EncryptedContentInfo, Rfc5652.EncryptedContentInfo⟩,
   ⟨"rfc5652.py:523", Rfc5652.UnprotectedAttributes, Rfc5652.UnprotectedAttributes⟩,
   ⟨"rfc5652.py:542", Rfc5652.CMSVersion, Rfc5652.CMSVersion⟩,
   ⟨"rfc5652.py:543", Rfc5652.EncryptedContentInfo, Rfc5652.EncryptedContentInfo⟩,
   ⟨"rfc5652.py:544", Rfc5652.UnprotectedAttributes, Rfc5652.UnprotectedAttributes⟩,
   ⟨"rfc5652.py:561", Rfc5652.Attribute, Rfc5652.Attribute⟩,
   ⟨"rfc5652.py:570", Rfc5652.IssuerAndSerialNumber, Rfc5652.IssuerAndSerialNumber⟩,
   ⟨"rfc5652.py:571", Rfc5652.SubjectKeyIdentifier, Rfc5652.SubjectKeyIdentifier⟩,
   ⟨"rfc5652.py:581", Rfc5652.CMSVersion, Rfc5652.CMSVersion⟩,
   ⟨"rfc5652.py:582", Rfc5652.SignerIdentifier, Rfc5652.SignerIdentifier⟩,
   ⟨"rfc5652.py:583", Rfc5652.DigestAlgorithmIdentifier, Rfc5652.DigestAlgorithmIdentifier⟩,
   ⟨"rfc5652.py:584", Rfc5652.SignedAttributes, Rfc5652.SignedAttributes⟩,
   ⟨"rfc5652.py:586", Rfc5652.SignatureAlgorithmIdentifier, Rfc5652.SignatureAlgorithmIdentifier⟩,
   ⟨"rfc5652.py:587", Rfc5652.SignatureValue, Rfc5652.SignatureValue⟩,
   ⟨"rfc5652.py:588", Rfc5652.UnsignedAttributes, Rfc5652.UnsignedAttributes⟩,
   ⟨"rfc5652.py:597", Rfc5652.SignerInfo, Rfc5652.SignerInfo⟩,
   ⟨"rfc5652.py:609", Rfc5652.ContentType, Rfc5652.ContentType⟩,
   ⟨"rfc5652.py:621", Rfc5652.ContentType, Rfc5652.ContentType⟩,
   ⟨"rfc5652.py:639", Rfc5652.Attribute, Rfc5652.Attribute⟩,
   ⟨"rfc5652.py:658", Rfc5652.CMSVersion, Rfc5652.CMSVersion⟩,
   ⟨"rfc5652.py:659", Rfc5652.OriginatorInfo, Rfc5652.OriginatorInfo⟩,
   ⟨"rfc5652.py:661", Rfc5652.RecipientInfos, Rfc5652.RecipientInfos⟩,
   ⟨"rfc5652.py:662", Rfc5652.MessageAuthenticationCodeAlgorithm, Rfc5652.MessageAuthenticationCodeAlgorithm⟩,
   ⟨"rfc5652.py:663", Rfc5652.DigestAlgorithmIdentifier, Rfc5652.DigestAlgorithmIdentifier⟩,
   ⟨"rfc5652.py:665", Rfc5652.EncapsulatedContentInfo, Rfc5652.EncapsulatedContentInfo⟩,
   ⟨"rfc5652.py:666", Rfc5652.AuthAttributes, Rfc5652.AuthAttributes⟩,
   ⟨"rfc5652.py:668", Rfc5652.MessageAuthenticationCode, Rfc5652.MessageAuthenticationCode⟩,
   ⟨"rfc5652.py:669", Rfc5652.UnauthAttributes, Rfc5652.UnauthAttributes⟩,
   ⟨"rfc5652.py:681", Rfc5280.Certificate, Rfc5280.Certificate⟩,
   ⟨"rfc5652.py:682", Rfc5652.ExtendedCertificate, Rfc5652.ExtendedCertificate⟩,
   ⟨"rfc5652.py:696", Rfc5652.CMSVersion, Rfc5652.CMSVersion⟩,
   ⟨"rfc5652.py:697", Rfc5652.DigestAlgorithmIdentifier, Rfc5652.DigestAlgorithmIdentifier⟩,
   ⟨"rfc5652.py:698", Rfc5652.EncapsulatedContentInfo, Rfc5652.EncapsulatedContentInfo⟩,
   ⟨"rfc5652.py:699", Rfc5652.Digest, Rfc5652.Digest⟩,
   ⟨"rfc5652.py:709", Rfc5652.DigestAlgorithmIdentifier, Rfc5652.DigestAlgorithmIdentifier⟩,
   ⟨"rfc5652.py:717", Rfc5652.CMSVersion, Rfc5652.CMSVersion⟩,
   ⟨"rfc5652.py:718", Rfc5652.DigestAlgorithmIdentifiers, Rfc5652.DigestAlgorithmIdentifiers⟩,
   ⟨"rfc5652.py:719", Rfc5652.EncapsulatedContentInfo, Rfc5652.EncapsulatedContentInfo⟩,
   ⟨"rfc5652.py:720", Rfc5652.CertificateSet, Rfc5652.CertificateSet⟩,
   ⟨"rfc5652.py:722", Rfc5652.RevocationInfoChoices, Rfc5652.RevocationInfoChoices⟩,
   ⟨"rfc5652.py:724", Rfc5652.SignerInfos, Rfc5652.SignerInfos⟩,
   ⟨"rfc5652.py:740", Rfc5652.ContentInfo, Rfc5652.ContentInfo⟩,
   ⟨"rfc5652.py:742", Rfc5652.SignedData, Rfc5652.SignedData⟩,
   ⟨"rfc5652.py:743", Rfc5652.EnvelopedData, Rfc5652.EnvelopedData⟩,
   ⟨"rfc5652.py:744", Rfc5652.DigestedData, Rfc5652.DigestedData⟩,
   ⟨"rfc5652.py:745", Rfc5652.EncryptedData, Rfc5652.EncryptedData⟩,
   ⟨"rfc5652.py:746", Rfc5652.AuthenticatedData, Rfc5652.AuthenticatedData⟩,
   ⟨"rfc5652.py:755", Rfc5652.ContentType, Rfc5652.ContentType⟩,
   ⟨"rfc5652.py:756", Rfc5652.MessageDigest, Rfc5652.MessageDigest⟩,
   ⟨"rfc5652.py:757", Rfc5652.SigningTime, Rfc5652.SigningTime⟩,
   ⟨"rfc5652.py:758", Rfc5652.Countersignature, Rfc5652.Countersignature⟩]

/-- Functions rfc5652.py defines. -/
def builders : List (String × (List Py.OidArg → Py.Obj)) :=
  [("rfc5652._buildOid", Rfc5652._buildOid)]

def asModule : Py.Module :=
  { id := (Py.mod 16 "rfc5652"), imports := imports, effects := effects, classes := classes, objects := objects, protos := protos, snapshots := snapshots, builders := builders }

end Rfc5652
end Verif
