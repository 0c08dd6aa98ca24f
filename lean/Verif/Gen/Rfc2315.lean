import Verif.Py.Obj
import Verif.Gen.Rfc2459

/-! Transcription of /repo/pyasn1_modules/rfc2315.py (generated by tools/gen.py). -/

namespace Verif
namespace Rfc2315

/-- rfc2315.py:18-22 `class Attribute(univ.Sequence)` -/
def Attribute : Py.Obj :=
  Py.univ.Sequence.setComponentType (Py.NamedTypes [
    Py.NamedType "type" Rfc2459.AttributeType.call,
    Py.NamedType "values" (Py.univ.SetOf.call.setComponentTypeOf Rfc2459.AttributeValue.call)])

/-- rfc2315.py:25-30 `class AttributeValueAssertion(univ.Sequence)` -/
def AttributeValueAssertion : Py.Obj :=
  Py.univ.Sequence.setComponentType (Py.NamedTypes [
    Py.NamedType "attributeType" Rfc2459.AttributeType.call,
    Py.NamedType "attributeValue" Rfc2459.AttributeValue.call (openType := some (Py.OpenType "type" (Py.map 0 "rfc2459.certificateAttributesMap")))])

/-- rfc2315.py:33 -/
def pkcs_7 : Py.Obj :=
  (Py.univ.ObjectIdentifier.call.callArcs [1, 2, 840, 113549, 1, 7])

/-- rfc2315.py:34 -/
def data : Py.Obj :=
  (Py.univ.ObjectIdentifier.call.callArcs [1, 2, 840, 113549, 1, 7, 1])

/-- rfc2315.py:35 -/
def signedData : Py.Obj :=
  (Py.univ.ObjectIdentifier.call.callArcs [1, 2, 840, 113549, 1, 7, 2])

/-- rfc2315.py:36 -/
def envelopedData : Py.Obj :=
  (Py.univ.ObjectIdentifier.call.callArcs [1, 2, 840, 113549, 1, 7, 3])

/-- rfc2315.py:37 -/
def signedAndEnvelopedData : Py.Obj :=
  (Py.univ.ObjectIdentifier.call.callArcs [1, 2, 840, 113549, 1, 7, 4])

/-- rfc2315.py:38 -/
def digestedData : Py.Obj :=
  (Py.univ.ObjectIdentifier.call.callArcs [1, 2, 840, 113549, 1, 7, 5])

/-- rfc2315.py:39 -/
def encryptedData : Py.Obj :=
  (Py.univ.ObjectIdentifier.call.callArcs [1, 2, 840, 113549, 1, 7, 6])

/-- rfc2315.py:42-43 `class ContentType(univ.ObjectIdentifier)` -/
def ContentType : Py.Obj :=
  Py.univ.ObjectIdentifier

/-- rfc2315.py:46-47 `class ContentEncryptionAlgorithmIdentifier(AlgorithmIdentifier)` -/
def ContentEncryptionAlgorithmIdentifier : Py.Obj :=
  Rfc2459.AlgorithmIdentifier

/-- rfc2315.py:50-51 `class EncryptedContent(univ.OctetString)` -/
def EncryptedContent : Py.Obj :=
  Py.univ.OctetString

/-- rfc2315.py:54 -/
def contentTypeMap : Py.Entries :=
  []

/-- rfc2315.py:57-67 `class EncryptedContentInfo(univ.Sequence)` -/
def EncryptedContentInfo : Py.Obj :=
  Py.univ.Sequence.setComponentType (Py.NamedTypes [
    Py.NamedType "contentType" Rfc2315.ContentType.call,
    Py.NamedType "contentEncryptionAlgorithm" Rfc2315.ContentEncryptionAlgorithmIdentifier.call,
    Py.OptionalNamedType "encryptedContent" (Rfc2315.EncryptedContent.call.implicitTag (Py.Tag .context true 0)) (openType := some (Py.OpenType "contentType" (Py.map 2 "rfc2315.contentTypeMap")))])

/-- rfc2315.py:70-71 `class Version(univ.Integer)` -/
def Version : Py.Obj :=
  Py.univ.Integer

/-- rfc2315.py:74-78 `class EncryptedData(univ.Sequence)` -/
def EncryptedData : Py.Obj :=
  Py.univ.Sequence.setComponentType (Py.NamedTypes [
    Py.NamedType "version" Rfc2315.Version.call,
    Py.NamedType "encryptedContentInfo" Rfc2315.EncryptedContentInfo.call])

/-- rfc2315.py:81-82 `class DigestAlgorithmIdentifier(AlgorithmIdentifier)` -/
def DigestAlgorithmIdentifier : Py.Obj :=
  Rfc2459.AlgorithmIdentifier

/-- rfc2315.py:85-86 `class DigestAlgorithmIdentifiers(univ.SetOf)` -/
def DigestAlgorithmIdentifiers : Py.Obj :=
  Py.univ.SetOf.setComponentTypeOf Rfc2315.DigestAlgorithmIdentifier.call

/-- rfc2315.py:89-90 `class Digest(univ.OctetString)` -/
def Digest : Py.Obj :=
  Py.univ.OctetString

/-- rfc2315.py:93-101 `class ContentInfo(univ.Sequence)` -/
def ContentInfo : Py.Obj :=
  Py.univ.Sequence.setComponentType (Py.NamedTypes [
    Py.NamedType "contentType" Rfc2315.ContentType.call,
    Py.OptionalNamedType "content" (Py.univ.Any.call.explicitTag (Py.Tag .context true 0)) (openType := some (Py.OpenType "contentType" (Py.map 2 "rfc2315.contentTypeMap")))])

/-- rfc2315.py:104-110 `class DigestedData(univ.Sequence)` -/
def DigestedData : Py.Obj :=
  Py.univ.Sequence.setComponentType (Py.NamedTypes [
    Py.NamedType "version" Rfc2315.Version.call,
    Py.NamedType "digestAlgorithm" Rfc2315.DigestAlgorithmIdentifier.call,
    Py.NamedType "contentInfo" Rfc2315.ContentInfo.call,
    Py.NamedType "digest" Rfc2315.Digest.call])

/-- rfc2315.py:113-117 `class IssuerAndSerialNumber(univ.Sequence)` -/
def IssuerAndSerialNumber : Py.Obj :=
  Py.univ.Sequence.setComponentType (Py.NamedTypes [
    Py.NamedType "issuer" Rfc2459.Name.call,
    Py.NamedType "serialNumber" Rfc2459.CertificateSerialNumber.call])

/-- rfc2315.py:120-121 `class KeyEncryptionAlgorithmIdentifier(AlgorithmIdentifier)` -/
def KeyEncryptionAlgorithmIdentifier : Py.Obj :=
  Rfc2459.AlgorithmIdentifier

/-- rfc2315.py:124-125 `class EncryptedKey(univ.OctetString)` -/
def EncryptedKey : Py.Obj :=
  Py.univ.OctetString

/-- rfc2315.py:128-134 `class RecipientInfo(univ.Sequence)` -/
def RecipientInfo : Py.Obj :=
  Py.univ.Sequence.setComponentType (Py.NamedTypes [
    Py.NamedType "version" Rfc2315.Version.call,
    Py.NamedType "issuerAndSerialNumber" Rfc2315.IssuerAndSerialNumber.call,
    Py.NamedType "keyEncryptionAlgorithm" Rfc2315.KeyEncryptionAlgorithmIdentifier.call,
    Py.NamedType "encryptedKey" Rfc2315.EncryptedKey.call])

/-- rfc2315.py:137-138 `class RecipientInfos(univ.SetOf)` -/
def RecipientInfos : Py.Obj :=
  Py.univ.SetOf.setComponentTypeOf Rfc2315.RecipientInfo.call

/-- rfc2315.py:141-142 `class Attributes(univ.SetOf)` -/
def Attributes : Py.Obj :=
  Py.univ.SetOf.setComponentTypeOf Rfc2315.Attribute.call

/-- rfc2315.py:145-150 `class ExtendedCertificateInfo(univ.Sequence)` -/
def ExtendedCertificateInfo : Py.Obj :=
  Py.univ.Sequence.setComponentType (Py.NamedTypes [
    Py.NamedType "version" Rfc2315.Version.call,
    Py.NamedType "certificate" Rfc2459.Certificate.call,
    Py.NamedType "attributes" Rfc2315.Attributes.call])

/-- rfc2315.py:153-154 `class SignatureAlgorithmIdentifier(AlgorithmIdentifier)` -/
def SignatureAlgorithmIdentifier : Py.Obj :=
  Rfc2459.AlgorithmIdentifier

/-- rfc2315.py:157-158 `class Signature(univ.BitString)` -/
def Signature : Py.Obj :=
  Py.univ.BitString

/-- rfc2315.py:161-166 `class ExtendedCertificate(univ.Sequence)` -/
def ExtendedCertificate : Py.Obj :=
  Py.univ.Sequence.setComponentType (Py.NamedTypes [
    Py.NamedType "extendedCertificateInfo" Rfc2315.ExtendedCertificateInfo.call,
    Py.NamedType "signatureAlgorithm" Rfc2315.SignatureAlgorithmIdentifier.call,
    Py.NamedType "signature" Rfc2315.Signature.call])

/-- rfc2315.py:169-174 `class ExtendedCertificateOrCertificate(univ.Choice)` -/
def ExtendedCertificateOrCertificate : Py.Obj :=
  Py.univ.Choice.setComponentType (Py.NamedTypes [
    Py.NamedType "certificate" Rfc2459.Certificate.call,
    Py.NamedType "extendedCertificate" (Rfc2315.ExtendedCertificate.call.implicitTag (Py.Tag .context true 0))])

/-- rfc2315.py:177-178 `class ExtendedCertificatesAndCertificates(univ.SetOf)` -/
def ExtendedCertificatesAndCertificates : Py.Obj :=
  Py.univ.SetOf.setComponentTypeOf Rfc2315.ExtendedCertificateOrCertificate.call

/-- rfc2315.py:181-182 `class SerialNumber(univ.Integer)` -/
def SerialNumber : Py.Obj :=
  Py.univ.Integer

/-- rfc2315.py:185-189 `class CRLEntry(univ.Sequence)` -/
def CRLEntry : Py.Obj :=
  Py.univ.Sequence.setComponentType (Py.NamedTypes [
    Py.NamedType "userCertificate" Rfc2315.SerialNumber.call,
    Py.NamedType "revocationDate" Py.useful.UTCTime.call])

/-- rfc2315.py:192-199 `class TBSCertificateRevocationList(univ.Sequence)` -/
def TBSCertificateRevocationList : Py.Obj :=
  Py.univ.Sequence.setComponentType (Py.NamedTypes [
    Py.NamedType "signature" Rfc2459.AlgorithmIdentifier.call,
    Py.NamedType "issuer" Rfc2459.Name.call,
    Py.NamedType "lastUpdate" Py.useful.UTCTime.call,
    Py.NamedType "nextUpdate" Py.useful.UTCTime.call,
    Py.OptionalNamedType "revokedCertificates" (Py.univ.SequenceOf.call.setComponentTypeOf Rfc2315.CRLEntry.call)])

/-- rfc2315.py:202-207 `class CertificateRevocationList(univ.Sequence)` -/
def CertificateRevocationList : Py.Obj :=
  Py.univ.Sequence.setComponentType (Py.NamedTypes [
    Py.NamedType "tbsCertificateRevocationList" Rfc2315.TBSCertificateRevocationList.call,
    Py.NamedType "signatureAlgorithm" Rfc2459.AlgorithmIdentifier.call,
    Py.NamedType "signature" Py.univ.BitString.call])

/-- rfc2315.py:210-211 `class CertificateRevocationLists(univ.SetOf)` -/
def CertificateRevocationLists : Py.Obj :=
  Py.univ.SetOf.setComponentTypeOf Rfc2315.CertificateRevocationList.call

/-- rfc2315.py:214-215 `class DigestEncryptionAlgorithmIdentifier(AlgorithmIdentifier)` -/
def DigestEncryptionAlgorithmIdentifier : Py.Obj :=
  Rfc2459.AlgorithmIdentifier

/-- rfc2315.py:218-219 `class EncryptedDigest(univ.OctetString)` -/
def EncryptedDigest : Py.Obj :=
  Py.univ.OctetString

/-- rfc2315.py:222-233 `class SignerInfo(univ.Sequence)` -/
def SignerInfo : Py.Obj :=
  Py.univ.Sequence.setComponentType (Py.NamedTypes [
    Py.NamedType "version" Rfc2315.Version.call,
    Py.NamedType "issuerAndSerialNumber" Rfc2315.IssuerAndSerialNumber.call,
    Py.NamedType "digestAlgorithm" Rfc2315.DigestAlgorithmIdentifier.call,
    Py.OptionalNamedType "authenticatedAttributes" (Rfc2315.Attributes.call.implicitTag (Py.Tag .context true 0)),
    Py.NamedType "digestEncryptionAlgorithm" Rfc2315.DigestEncryptionAlgorithmIdentifier.call,
    Py.NamedType "encryptedDigest" Rfc2315.EncryptedDigest.call,
    Py.OptionalNamedType "unauthenticatedAttributes" (Rfc2315.Attributes.call.implicitTag (Py.Tag .context true 1))])

/-- rfc2315.py:236-237 `class SignerInfos(univ.SetOf)` -/
def SignerInfos : Py.Obj :=
  Py.univ.SetOf.setComponentTypeOf Rfc2315.SignerInfo.call

/-- rfc2315.py:240-251 `class SignedAndEnvelopedData(univ.Sequence)` -/
def SignedAndEnvelopedData : Py.Obj :=
  Py.univ.Sequence.setComponentType (Py.NamedTypes [
    Py.NamedType "version" Rfc2315.Version.call,
    Py.NamedType "recipientInfos" Rfc2315.RecipientInfos.call,
    Py.NamedType "digestAlgorithms" Rfc2315.DigestAlgorithmIdentifiers.call,
    Py.NamedType "encryptedContentInfo" Rfc2315.EncryptedContentInfo.call,
    Py.OptionalNamedType "certificates" (Rfc2315.ExtendedCertificatesAndCertificates.call.implicitTag (Py.Tag .context true 0)),
    Py.OptionalNamedType "crls" (Rfc2315.CertificateRevocationLists.call.implicitTag (Py.Tag .context true 1)),
    Py.NamedType "signerInfos" Rfc2315.SignerInfos.call])

/-- rfc2315.py:254-259 `class EnvelopedData(univ.Sequence)` -/
def EnvelopedData : Py.Obj :=
  Py.univ.Sequence.setComponentType (Py.NamedTypes [
    Py.NamedType "version" Rfc2315.Version.call,
    Py.NamedType "recipientInfos" Rfc2315.RecipientInfos.call,
    Py.NamedType "encryptedContentInfo" Rfc2315.EncryptedContentInfo.call])

/-- rfc2315.py:262-266 `class DigestInfo(univ.Sequence)` -/
def DigestInfo : Py.Obj :=
  Py.univ.Sequence.setComponentType (Py.NamedTypes [
    Py.NamedType "digestAlgorithm" Rfc2315.DigestAlgorithmIdentifier.call,
    Py.NamedType "digest" Rfc2315.Digest.call])

/-- rfc2315.py:269-279 `class SignedData(univ.Sequence)` -/
def SignedData : Py.Obj :=
  Py.univ.Sequence.setComponentType (Py.NamedTypes [
    Py.NamedType "version" Rfc2315.Version.call,
    Py.OptionalNamedType "digestAlgorithms" Rfc2315.DigestAlgorithmIdentifiers.call,
    Py.NamedType "contentInfo" Rfc2315.ContentInfo.call,
    Py.OptionalNamedType "certificates" (Rfc2315.ExtendedCertificatesAndCertificates.call.implicitTag (Py.Tag .context true 0)),
    Py.OptionalNamedType "crls" (Rfc2315.CertificateRevocationLists.call.implicitTag (Py.Tag .context true 1)),
    Py.OptionalNamedType "signerInfos" Rfc2315.SignerInfos.call])

/-- rfc2315.py:282-283 `class Data(univ.OctetString)` -/
def Data : Py.Obj :=
  Py.univ.OctetString

/-- rfc2315.py:285-292 -/
def _contentTypeMapUpdate : Py.Entries :=
  [(Rfc2315.data.value, Rfc2315.Data.call.ty),
    (Rfc2315.signedData.value, Rfc2315.SignedData.call.ty),
    (Rfc2315.envelopedData.value, Rfc2315.EnvelopedData.call.ty),
    (Rfc2315.signedAndEnvelopedData.value, Rfc2315.SignedAndEnvelopedData.call.ty),
    (Rfc2315.digestedData.value, Rfc2315.DigestedData.call.ty),
    (Rfc2315.encryptedData.value, Rfc2315.EncryptedData.call.ty)]

/-- Modules of this package imported by rfc2315.py, in textual order. -/
def imports : List Py.Ident :=
  [(Py.mod 6 "rfc2459")]

/-- Dictionary operations executed when rfc2315.py is imported, in program order. -/
def effects : List Py.Effect :=
  [.create (Py.map 2 "rfc2315.contentTypeMap") Rfc2315.contentTypeMap /- rfc2315.py:54 -/,
   .create (Py.map 28 "rfc2315._contentTypeMapUpdate") Rfc2315._contentTypeMapUpdate /- rfc2315.py:285-292 -/,
   .update (Py.map 2 "rfc2315.contentTypeMap") Rfc2315._contentTypeMapUpdate /- rfc2315.py:294 -/]

/-- ASN.1 types rfc2315.py binds at module level (final version of each name), plus nested classes. -/
def classes : List (String × Py.Obj) :=
  [("rfc2315.Attribute", Rfc2315.Attribute),
   ("rfc2315.Version", Rfc2315.Version),
   ("rfc2315.AttributeValueAssertion", Rfc2315.AttributeValueAssertion),
   ("rfc2315.ContentType", Rfc2315.ContentType),
   ("rfc2315.ContentEncryptionAlgorithmIdentifier", Rfc2315.ContentEncryptionAlgorithmIdentifier),
   ("rfc2315.EncryptedContent", Rfc2315.EncryptedContent),
   ("rfc2315.EncryptedContentInfo", Rfc2315.EncryptedContentInfo),
   ("rfc2315.EncryptedData", Rfc2315.EncryptedData),
   ("rfc2315.DigestAlgorithmIdentifier", Rfc2315.DigestAlgorithmIdentifier),
   ("rfc2315.DigestAlgorithmIdentifiers", Rfc2315.DigestAlgorithmIdentifiers),
   ("rfc2315.Digest", Rfc2315.Digest),
   ("rfc2315.ContentInfo", Rfc2315.ContentInfo),
   ("rfc2315.DigestedData", Rfc2315.DigestedData),
   ("rfc2315.IssuerAndSerialNumber", Rfc2315.IssuerAndSerialNumber),
   ("rfc2315.KeyEncryptionAlgorithmIdentifier", Rfc2315.KeyEncryptionAlgorithmIdentifier),
   ("rfc2315.EncryptedKey", Rfc2315.EncryptedKey),
   ("rfc2315.RecipientInfo", Rfc2315.RecipientInfo),
   ("rfc2315.RecipientInfos", Rfc2315.RecipientInfos),
   ("rfc2315.Attributes", Rfc2315.Attributes),
   ("rfc2315.ExtendedCertificateInfo", Rfc2315.ExtendedCertificateInfo),
   ("rfc2315.SignatureAlgorithmIdentifier", Rfc2315.SignatureAlgorithmIdentifier),
   ("rfc2315.Signature", Rfc2315.Signature),
   ("rfc2315.ExtendedCertificate", Rfc2315.ExtendedCertificate),
   ("rfc2315.ExtendedCertificateOrCertificate", Rfc2315.ExtendedCertificateOrCertificate),
   ("rfc2315.ExtendedCertificatesAndCertificates", Rfc2315.ExtendedCertificatesAndCertificates),
   ("rfc2315.SerialNumber", Rfc2315.SerialNumber),
   ("rfc2315.CRLEntry", Rfc2315.CRLEntry),
   ("rfc2315.TBSCertificateRevocationList", Rfc2315.TBSCertificateRevocationList),
   ("rfc2315.CertificateRevocationList", Rfc2315.CertificateRevocationList),
   ("rfc2315.CertificateRevocationLists", Rfc2315.CertificateRevocationLists),
   ("rfc2315.DigestEncryptionAlgorithmIdentifier", Rfc2315.DigestEncryptionAlgorithmIdentifier),
   ("rfc2315.EncryptedDigest", Rfc2315.EncryptedDigest),
   ("rfc2315.SignerInfo", Rfc2315.SignerInfo),
   ("rfc2315.SignerInfos", Rfc2315.SignerInfos),
   ("rfc2315.SignedAndEnvelopedData", Rfc2315.SignedAndEnvelopedData),
   ("rfc2315.EnvelopedData", Rfc2315.EnvelopedData),
   ("rfc2315.DigestInfo", Rfc2315.DigestInfo),
   ("rfc2315.SignedData", Rfc2315.SignedData),
   ("rfc2315.Data", Rfc2315.Data)]

/-- pyasn1 instances rfc2315.py binds at module level. -/
def objects : List (String × Py.Obj) :=
  [("rfc2315.pkcs_7", Rfc2315.pkcs_7),
   ("rfc2315.data", Rfc2315.data),
   ("rfc2315.signedData", Rfc2315.signedData),
   ("rfc2315.envelopedData", Rfc2315.envelopedData),
   ("rfc2315.signedAndEnvelopedData", Rfc2315.signedAndEnvelopedData),
   ("rfc2315.digestedData", Rfc2315.digestedData),
   ("rfc2315.encryptedData", Rfc2315.encryptedData)]

/-- pyasn1 instances rfc2315.py fills in by item assignment. -/
def protos : List (String × Py.Proto) :=
  []

/-- Every place of rfc2315.py that instantiates a class of the package: where, the class as it is
at that point, and the class as it is when the import has finished. -/
def snapshots : List Py.Snapshot :=
  [⟨"rfc2315.py:20", Rfc2459.AttributeType, Rfc2459.AttributeType⟩,
   ⟨"rfc2315.py:21", Rfc2459.AttributeValue, Rfc2459.AttributeValue⟩,
   ⟨"rfc2315.py:27", Rfc2459.AttributeType, Rfc2459.AttributeType⟩,
   ⟨"rfc2315.py:28", Rfc2459.AttributeValue, Rfc2459.AttributeValue⟩,
   ⟨"rfc2315.py:59", Rfc2315.ContentType, Rfc2315.ContentType⟩,
   ⟨"rfc2315.py:60", Rfc2315.ContentEncryptionAlgorithmIdentifier, Rfc2315.ContentEncryptionAlgorithmIdentifier⟩,
   ⟨"rfc2315.py:62", Rfc2315.EncryptedContent, Rfc2315.EncryptedContent⟩,
   ⟨"rfc2315.py:76", Rfc2315.Version, Rfc2315.Version⟩,
   ⟨"rfc2315.py:77", Rfc2315.EncryptedContentInfo, Rfc2315.EncryptedContentInfo⟩,
   ⟨"rfc2315.py:86", Rfc2315.DigestAlgorithmIdentifier, Rfc2315.DigestAlgorithmIdentifier⟩,
   ⟨"rfc2315.py:95", Rfc2315.ContentType, Rfc2315.ContentType⟩,
   ⟨"rfc2315.py:106", Rfc2315.Version, Rfc2315.Version⟩,
   ⟨"rfc2315.py:107", Rfc2315.DigestAlgorithmIdentifier, Rfc2315.DigestAlgorithmIdentifier⟩,
   ⟨"rfc2315.py:108", Rfc2315.ContentInfo, Rfc2315.ContentInfo⟩,
   ⟨"rfc2315.py:109", Rfc2315.Digest, Rfc2315.Digest⟩,
   ⟨"rfc2315.py:115", Rfc2459.Name, Rfc2459.Name⟩,
   ⟨"rfc2315.py:116", Rfc2459.CertificateSerialNumber, Rfc2459.CertificateSerialNumber⟩,
   ⟨"rfc2315.py:130", Rfc2315.Version, Rfc2315.Version⟩,
   ⟨"rfc2315.py:131", Rfc2315.IssuerAndSerialNumber, Rfc2315.IssuerAndSerialNumber⟩,
   ⟨"rfc2315.py:132", Rfc2315.KeyEncryptionAlgorithmIdentifier, Rfc2315.KeyEncryptionAlgorithmIdentifier⟩,
   ⟨"rfc2315.py:133", Rfc2315.EncryptedKey, Rfc2315.EncryptedKey⟩,
   ⟨"rfc2315.py:138", Rfc2315.RecipientInfo, Rfc2315.RecipientInfo⟩,
   ⟨"rfc2315.py:142", Rfc2315.Attribute, Rfc2315.Attribute⟩,
   ⟨"rfc2315.py:147", Rfc2315.Version, Rfc2315.Version⟩,
   ⟨"rfc2315.py:148", Rfc2459.Certificate, Rfc2459.Certificate⟩,
   ⟨"rfc2315.py:149", Rfc2315.Attributes, Rfc2315.Attributes⟩,
   ⟨"rfc2315.py:163", Rfc2315.ExtendedCertificateInfo, Rfc2315.ExtendedCertificateInfo⟩,
   ⟨"rfc2315.py:164", Rfc2315.SignatureAlgorithmIdentifier, Rfc2315.SignatureAlgorithmIdentifier⟩,
   ⟨"rfc2315.py:165", Rfc2315.Signature, Rfc2315.Signature⟩,
   ⟨"rfc2315.py:171", Rfc2459.Certificate, Rfc2459.Certificate⟩,
   ⟨"rfc2315.py:172", Rfc2315.ExtendedCertificate, Rfc2315.ExtendedCertificate⟩,
   ⟨"rfc2315.py:178", Rfc2315.ExtendedCertificateOrCertificate, Rfc2315.ExtendedCertificateOrCertificate⟩,
   ⟨"rfc2315.py:187", Rfc2315.SerialNumber, Rfc2315.SerialNumber⟩,
   ⟨"rfc2315.py:194", Rfc2459.AlgorithmIdentifier, Rfc2459.AlgorithmIdentifier⟩,
   ⟨"rfc2315.py:195", Rfc2459.Name, Rfc2459.Name⟩,
   ⟨"rfc2315.py:198", Rfc2315.CRLEntry, Rfc2315.CRLEntry⟩,
   ⟨"rfc2315.py:204", Rfc2315.TBSCertificateRevocationList, Rfc2315.TBSCertificateRevocationList⟩,
   ⟨"rfc2315.py:205", Rfc2459.AlgorithmIdentifier, Rfc2459.AlgorithmIdentifier⟩,
   ⟨"rfc2315.py:211", Rfc2315.CertificateRevocationList, Rfc2315.CertificateRevocationList⟩,
   ⟨"rfc2315.py:224", Rfc2315.Version, Rfc2315.Version⟩,
   ⟨"rfc2315.py:225", Rfc2315.IssuerAndSerialNumber, Rfc2315.IssuerAndSerialNumber⟩,
   ⟨"rfc2315.py:226", Rfc2315.DigestAlgorithmIdentifier, Rfc2315.DigestAlgorithmIdentifier⟩,
   ⟨"rfc2315.py:227", Rfc2315.Attributes, Rfc2315.Attributes⟩,
   ⟨"rfc2315.py:229", Rfc2315.DigestEncryptionAlgorithmIdentifier, Rfc2315.DigestEncryptionAlgorithmIdentifier⟩,
   ⟨"rfc2315.py:230", Rfc2315.EncryptedDigest, Rfc2315.EncryptedDigest⟩,
   ⟨"rfc2315.py:231", Rfc2315.Attributes, Rfc2315.Attributes⟩,
   ⟨"rfc2315.py:237", Rfc2315.SignerInfo, Rfc2315.SignerInfo⟩,
   ⟨"rfc2315.py:242", Rfc2315.Version, Rfc2315.Version⟩,
   ⟨"rfc2315.py:243", Rfc2315.RecipientInfos, Rfc2315.RecipientInfos⟩,
   ⟨"rfc2315.py:244", Rfc2315.DigestAlgorithmIdentifiers, Rfc2315.DigestAlgorithmIdentifiers⟩,
   ⟨"rfc2315.py:245", Rfc2315.EncryptedContentInfo, Rfc2315.EncryptedContentInfo⟩,
   ⟨"rfc2315.py:246", Rfc2315.ExtendedCertificatesAndCertificates, Rfc2315.ExtendedCertificatesAndCertificates⟩,
   ⟨"rfc2315.py:248", Rfc2315.CertificateRevocationLists, Rfc2315.CertificateRevocationLists⟩,
   ⟨"rfc2315.py:250", Rfc2315.SignerInfos, Rfc2315.SignerInfos⟩,
   ⟨"rfc2315.py:256", Rfc2315.Version, Rfc2315.Version⟩,
   ⟨"rfc2315.py:257", Rfc2315.RecipientInfos, Rfc2315.RecipientInfos⟩,
   ⟨"rfc2315.py:258", Rfc2315.EncryptedContentInfo, Rfc2315.EncryptedContentInfo⟩,
   ⟨"rfc2315.py:264", Rfc2315.DigestAlgorithmIdentifier, Rfc2315.DigestAlgorithmIdentifier⟩,
   ⟨"rfc2315.py:265", Rfc2315.Digest, Rfc2315.Digest⟩,
   ⟨"rfc2315.py:271", Rfc2315.Version, Rfc2315.Version⟩,
   ⟨"rfc2315.py:272", Rfc2315.DigestAlgorithmIdentifiers, Rfc2315.DigestAlgorithmIdentifiers⟩,
   ⟨"rfc2315.py:273", Rfc2315.ContentInfo, Rfc2315.ContentInfo⟩,
   ⟨"rfc2315.py:274", Rfc2315.ExtendedCertificatesAndCertificates, Rfc2315.ExtendedCertificatesAndCertificates⟩,
   ⟨"rfc2315.py:276", Rfc2315.CertificateRevocationLists, Rfc2315.CertificateRevocationLists⟩,
   ⟨"rfc2315.py:278", Rfc2315.SignerInfos, Rfc2315.SignerInfos⟩,
   ⟨"rfc2315.py:286", Rfc2315.Data, Rfc2315.Data⟩,
   ⟨"rfc2315.py:287", Rfc2315.SignedData, Rfc2315.SignedData⟩,
   ⟨"rfc2315.py:288", Rfc2315.EnvelopedData, Rfc2315.EnvelopedData⟩,
   ⟨"rfc2315.py:289", Rfc2315.SignedAndEnvelopedData, Rfc2315.SignedAndEnvelopedData⟩,
   ⟨"rfc2315.py:290", Rfc2315.DigestedData, Rfc2315.DigestedData⟩,
   ⟨"rfc2315.py:291", Rfc2315.EncryptedData, Rfc2315.EncryptedData⟩]

/-- Functions rfc2315.py defines. -/
def builders : List (String × (List Py.OidArg → Py.Obj)) :=
  []

def asModule : Py.Module :=
  { id := (Py.mod 8 "rfc2315"), imports := imports, effects := effects, classes := classes, objects := objects, protos := protos, snapshots := snapshots, builders := builders }

end Rfc2315
end Verif
