import Verif.Py.Obj
import Verif.Gen.Rfc5652
import Verif.Gen.Rfc5280

/-! Transcription of /repo/pyasn1_modules/rfc2634.py (generated by tools/gen.py). -/

namespace Verif
namespace Rfc2634

/-- rfc2634.py:27 -/
def MAX : Py.Bound :=
  .inf

/-- rfc2634.py:29 alias of `rfc5652.ContentType` -/
def ContentType : Py.Obj :=
  Rfc5652.ContentType

/-- rfc2634.py:31 alias of `rfc5652.IssuerAndSerialNumber` -/
def IssuerAndSerialNumber : Py.Obj :=
  Rfc5652.IssuerAndSerialNumber

/-- rfc2634.py:33 alias of `rfc5652.SubjectKeyIdentifier` -/
def SubjectKeyIdentifier : Py.Obj :=
  Rfc5652.SubjectKeyIdentifier

/-- rfc2634.py:35 alias of `rfc5280.PolicyInformation` -/
def PolicyInformation : Py.Obj :=
  Rfc5280.PolicyInformation

/-- rfc2634.py:37 alias of `rfc5280.GeneralNames` -/
def GeneralNames : Py.Obj :=
  Rfc5280.GeneralNames

/-- rfc2634.py:39 alias of `rfc5280.CertificateSerialNumber` -/
def CertificateSerialNumber : Py.Obj :=
  Rfc5280.CertificateSerialNumber

/-- rfc2634.py:45 -/
def id_aa_signingCertificate : Py.Obj :=
  (Py.univ.ObjectIdentifier.call.callArcs [1, 2, 840, 113549, 1, 9, 16, 2, 12])

/-- rfc2634.py:47-48 `class Hash(univ.OctetString)` -/
def Hash : Py.Obj :=
  Py.univ.OctetString

/-- rfc2634.py:51-52 `class IssuerSerial(univ.Sequence)` -/
def IssuerSerial__0 : Py.Obj :=
  Py.univ.Sequence

/-- rfc2634.py:54-57 `IssuerSerial.componentType = ...` -/
def IssuerSerial : Py.Obj :=
  Rfc2634.IssuerSerial__0.setComponentType (Py.NamedTypes [
    Py.NamedType "issuer" Rfc2634.GeneralNames.call,
    Py.NamedType "serialNumber" Rfc2634.CertificateSerialNumber.call])

/-- rfc2634.py:60-61 `class ESSCertID(univ.Sequence)` -/
def ESSCertID__0 : Py.Obj :=
  Py.univ.Sequence

/-- rfc2634.py:63-66 `ESSCertID.componentType = ...` -/
def ESSCertID : Py.Obj :=
  Rfc2634.ESSCertID__0.setComponentType (Py.NamedTypes [
    Py.NamedType "certHash" Rfc2634.Hash.call,
    Py.OptionalNamedType "issuerSerial" Rfc2634.IssuerSerial.call])

/-- rfc2634.py:69-70 `class SigningCertificate(univ.Sequence)` -/
def SigningCertificate__0 : Py.Obj :=
  Py.univ.Sequence

/-- rfc2634.py:72-77 `SigningCertificate.componentType = ...` -/
def SigningCertificate : Py.Obj :=
  Rfc2634.SigningCertificate__0.setComponentType (Py.NamedTypes [
    Py.NamedType "certs" (Py.univ.SequenceOf.call.setComponentTypeOf Rfc2634.ESSCertID.call),
    Py.OptionalNamedType "policies" (Py.univ.SequenceOf.call.setComponentTypeOf Rfc2634.PolicyInformation.call)])

/-- rfc2634.py:82 -/
def id_aa_mlExpandHistory : Py.Obj :=
  (Py.univ.ObjectIdentifier.call.callArcs [1, 2, 840, 113549, 1, 9, 16, 2, 3])

/-- rfc2634.py:84 -/
def ub_ml_expansion_history : Py.Obj :=
  (Py.univ.Integer.call.callInt 64)

/-- rfc2634.py:87-88 `class EntityIdentifier(univ.Choice)` -/
def EntityIdentifier__0 : Py.Obj :=
  Py.univ.Choice

/-- rfc2634.py:90-93 `EntityIdentifier.componentType = ...` -/
def EntityIdentifier : Py.Obj :=
  Rfc2634.EntityIdentifier__0.setComponentType (Py.NamedTypes [
    Py.NamedType "issuerAndSerialNumber" Rfc2634.IssuerAndSerialNumber.call,
    Py.NamedType "subjectKeyIdentifier" Rfc2634.SubjectKeyIdentifier.call])

/-- rfc2634.py:96-97 `class MLReceiptPolicy(univ.Choice)` -/
def MLReceiptPolicy__0 : Py.Obj :=
  Py.univ.Choice

/-- rfc2634.py:99-110 `MLReceiptPolicy.componentType = ...` -/
def MLReceiptPolicy : Py.Obj :=
  Rfc2634.MLReceiptPolicy__0.setComponentType (Py.NamedTypes [
    Py.NamedType "none" (Py.univ.Null.call.implicitTag (Py.Tag .context false 0)),
    Py.NamedType "insteadOf" (((Py.univ.SequenceOf.call.setComponentTypeOf Rfc2634.GeneralNames.call).addSizeSpec (Py.ValueSizeConstraint (.fin 1) Rfc2634.MAX)).implicitTag (Py.Tag .context false 1)),
    Py.NamedType "inAdditionTo" (((Py.univ.SequenceOf.call.setComponentTypeOf Rfc2634.GeneralNames.call).addSizeSpec (Py.ValueSizeConstraint (.fin 1) Rfc2634.MAX)).implicitTag (Py.Tag .context false 2))])

/-- rfc2634.py:113-114 `class MLData(univ.Sequence)` -/
def MLData__0 : Py.Obj :=
  Py.univ.Sequence

/-- rfc2634.py:116-120 `MLData.componentType = ...` -/
def MLData : Py.Obj :=
  Rfc2634.MLData__0.setComponentType (Py.NamedTypes [
    Py.NamedType "mailListIdentifier" Rfc2634.EntityIdentifier.call,
    Py.NamedType "expansionTime" Py.useful.GeneralizedTime.call,
    Py.OptionalNamedType "mlReceiptPolicy" Rfc2634.MLReceiptPolicy.call])

/-- rfc2634.py:122-123 `class MLExpansionHistory(univ.SequenceOf)` -/
def MLExpansionHistory__0 : Py.Obj :=
  Py.univ.SequenceOf

/-- rfc2634.py:125 `MLExpansionHistory.componentType = ...` -/
def MLExpansionHistory__1 : Py.Obj :=
  Rfc2634.MLExpansionHistory__0.setComponentTypeOf Rfc2634.MLData.call

/-- rfc2634.py:126 `MLExpansionHistory.sizeSpec = ...` -/
def MLExpansionHistory : Py.Obj :=
  Rfc2634.MLExpansionHistory__1.setSizeSpec (Py.ValueSizeConstraint (.fin 1) Rfc2634.ub_ml_expansion_history.bound)

/-- rfc2634.py:131 -/
def id_aa_securityLabel : Py.Obj :=
  (Py.univ.ObjectIdentifier.call.callArcs [1, 2, 840, 113549, 1, 9, 16, 2, 2])

/-- rfc2634.py:133 -/
def ub_privacy_mark_length : Py.Obj :=
  (Py.univ.Integer.call.callInt 128)

/-- rfc2634.py:135 -/
def ub_security_categories : Py.Obj :=
  (Py.univ.Integer.call.callInt 64)

/-- rfc2634.py:137 -/
def ub_integer_options : Py.Obj :=
  (Py.univ.Integer.call.callInt 256)

/-- rfc2634.py:140-141 `class ESSPrivacyMark(univ.Choice)` -/
def ESSPrivacyMark__0 : Py.Obj :=
  Py.univ.Choice

/-- rfc2634.py:143-148 `ESSPrivacyMark.componentType = ...` -/
def ESSPrivacyMark : Py.Obj :=
  Rfc2634.ESSPrivacyMark__0.setComponentType (Py.NamedTypes [
    Py.NamedType "pString" (Py.char.PrintableString.call.addSubtypeSpec (Py.ValueSizeConstraint (.fin 1) Rfc2634.ub_privacy_mark_length.bound)),
    Py.NamedType "utf8String" (Py.char.UTF8String.call.addSubtypeSpec (Py.ValueSizeConstraint (.fin 1) Rfc2634.MAX))])

/-- rfc2634.py:151-152 `class SecurityClassification(univ.Integer)` -/
def SecurityClassification__0 : Py.Obj :=
  Py.univ.Integer

/-- rfc2634.py:154 `SecurityClassification.subtypeSpec = ...` -/
def SecurityClassification__1 : Py.Obj :=
  Rfc2634.SecurityClassification__0.setSubtypeSpec (Py.ValueRangeConstraint (.fin 0) Rfc2634.ub_integer_options.bound)

/-- rfc2634.py:156-163 `SecurityClassification.namedValues = ...` -/
def SecurityClassification : Py.Obj :=
  Rfc2634.SecurityClassification__1.setNamedValues (Py.NamedValues [("unmarked", 0), ("unclassified", 1), ("restricted", 2), ("confidential", 3), ("secret", 4), ("top-secret", 5)])

/-- rfc2634.py:166-167 `class SecurityPolicyIdentifier(univ.ObjectIdentifier)` -/
def SecurityPolicyIdentifier : Py.Obj :=
  Py.univ.ObjectIdentifier

/-- rfc2634.py:170-171 `class SecurityCategory(univ.Sequence)` -/
def SecurityCategory__0 : Py.Obj :=
  Py.univ.Sequence

/-- rfc2634.py:173-178 `SecurityCategory.componentType = ...` -/
def SecurityCategory : Py.Obj :=
  Rfc2634.SecurityCategory__0.setComponentType (Py.NamedTypes [
    Py.NamedType "type" (Py.univ.ObjectIdentifier.call.implicitTag (Py.Tag .context false 0)),
    Py.NamedType "value" (Py.univ.Any.call.implicitTag (Py.Tag .context false 1))])

/-- rfc2634.py:181-182 `class SecurityCategories(univ.SetOf)` -/
def SecurityCategories__0 : Py.Obj :=
  Py.univ.SetOf

/-- rfc2634.py:184 `SecurityCategories.componentType = ...` -/
def SecurityCategories__1 : Py.Obj :=
  Rfc2634.SecurityCategories__0.setComponentTypeOf Rfc2634.SecurityCategory.call

/-- rfc2634.py:185 `SecurityCategories.sizeSpec = ...` -/
def SecurityCategories : Py.Obj :=
  Rfc2634.SecurityCategories__1.setSizeSpec (Py.ValueSizeConstraint (.fin 1) Rfc2634.ub_security_categories.bound)

/-- rfc2634.py:188-189 `class ESSSecurityLabel(univ.Set)` -/
def ESSSecurityLabel__0 : Py.Obj :=
  Py.univ.Set

/-- rfc2634.py:191-196 `ESSSecurityLabel.componentType = ...` -/
def ESSSecurityLabel : Py.Obj :=
  Rfc2634.ESSSecurityLabel__0.setComponentType (Py.NamedTypes [
    Py.NamedType "security-policy-identifier" Rfc2634.SecurityPolicyIdentifier.call,
    Py.OptionalNamedType "security-classification" Rfc2634.SecurityClassification.call,
    Py.OptionalNamedType "privacy-mark" Rfc2634.ESSPrivacyMark.call,
    Py.OptionalNamedType "security-categories" Rfc2634.SecurityCategories.call])

/-- rfc2634.py:201 -/
def id_aa_equivalentLabels : Py.Obj :=
  (Py.univ.ObjectIdentifier.call.callArcs [1, 2, 840, 113549, 1, 9, 16, 2, 9])

/-- rfc2634.py:203-204 `class EquivalentLabels(univ.SequenceOf)` -/
def EquivalentLabels__0 : Py.Obj :=
  Py.univ.SequenceOf

/-- rfc2634.py:206 `EquivalentLabels.componentType = ...` -/
def EquivalentLabels : Py.Obj :=
  Rfc2634.EquivalentLabels__0.setComponentTypeOf Rfc2634.ESSSecurityLabel.call

/-- rfc2634.py:211 -/
def id_aa_contentIdentifier : Py.Obj :=
  (Py.univ.ObjectIdentifier.call.callArcs [1, 2, 840, 113549, 1, 9, 16, 2, 7])

/-- rfc2634.py:213-214 `class ContentIdentifier(univ.OctetString)` -/
def ContentIdentifier : Py.Obj :=
  Py.univ.OctetString

/-- rfc2634.py:219 -/
def id_aa_contentReference : Py.Obj :=
  (Py.univ.ObjectIdentifier.call.callArcs [1, 2, 840, 113549, 1, 9, 16, 2, 10])

/-- rfc2634.py:221-222 `class ContentReference(univ.Sequence)` -/
def ContentReference__0 : Py.Obj :=
  Py.univ.Sequence

/-- rfc2634.py:224-228 `ContentReference.componentType = ...` -/
def ContentReference : Py.Obj :=
  Rfc2634.ContentReference__0.setComponentType (Py.NamedTypes [
    Py.NamedType "contentType" Rfc2634.ContentType.call,
    Py.NamedType "signedContentIdentifier" Rfc2634.ContentIdentifier.call,
    Py.NamedType "originatorSignatureValue" Py.univ.OctetString.call])

/-- rfc2634.py:233 -/
def id_aa_msgSigDigest : Py.Obj :=
  (Py.univ.ObjectIdentifier.call.callArcs [1, 2, 840, 113549, 1, 9, 16, 2, 5])

/-- rfc2634.py:235-236 `class MsgSigDigest(univ.OctetString)` -/
def MsgSigDigest : Py.Obj :=
  Py.univ.OctetString

/-- rfc2634.py:241 -/
def id_aa_contentHint : Py.Obj :=
  (Py.univ.ObjectIdentifier.call.callArcs [1, 2, 840, 113549, 1, 9, 16, 2, 4])

/-- rfc2634.py:243-244 `class ContentHints(univ.Sequence)` -/
def ContentHints__0 : Py.Obj :=
  Py.univ.Sequence

/-- rfc2634.py:246-249 `ContentHints.componentType = ...` -/
def ContentHints : Py.Obj :=
  Rfc2634.ContentHints__0.setComponentType (Py.NamedTypes [
    Py.OptionalNamedType "contentDescription" (Py.char.UTF8String.call.addSubtypeSpec (Py.ValueSizeConstraint (.fin 1) Rfc2634.MAX)),
    Py.NamedType "contentType" Rfc2634.ContentType.call])

/-- rfc2634.py:254-255 `class AllOrFirstTier(univ.Integer)` -/
def AllOrFirstTier__0 : Py.Obj :=
  Py.univ.Integer

/-- rfc2634.py:257-260 `AllOrFirstTier.namedValues = ...` -/
def AllOrFirstTier : Py.Obj :=
  Rfc2634.AllOrFirstTier__0.setNamedValues (Py.NamedValues [("allReceipts", 0), ("firstTierRecipients", 1)])

/-- rfc2634.py:263-264 `class ReceiptsFrom(univ.Choice)` -/
def ReceiptsFrom__0 : Py.Obj :=
  Py.univ.Choice

/-- rfc2634.py:266-272 `ReceiptsFrom.componentType = ...` -/
def ReceiptsFrom : Py.Obj :=
  Rfc2634.ReceiptsFrom__0.setComponentType (Py.NamedTypes [
    Py.NamedType "allOrFirstTier" (Rfc2634.AllOrFirstTier.call.implicitTag (Py.Tag .context false 0)),
    Py.NamedType "receiptList" ((Py.univ.SequenceOf.call.setComponentTypeOf Rfc2634.GeneralNames.call).implicitTag (Py.Tag .context false 1))])

/-- rfc2634.py:275 -/
def id_aa_receiptRequest : Py.Obj :=
  (Py.univ.ObjectIdentifier.call.callArcs [1, 2, 840, 113549, 1, 9, 16, 2, 1])

/-- rfc2634.py:277 -/
def ub_receiptsTo : Py.Obj :=
  (Py.univ.Integer.call.callInt 16)

/-- rfc2634.py:279-280 `class ReceiptRequest(univ.Sequence)` -/
def ReceiptRequest__0 : Py.Obj :=
  Py.univ.Sequence

/-- rfc2634.py:282-286 `ReceiptRequest.componentType = ...` -/
def ReceiptRequest : Py.Obj :=
  Rfc2634.ReceiptRequest__0.setComponentType (Py.NamedTypes [
    Py.NamedType "signedContentIdentifier" Rfc2634.ContentIdentifier.call,
    Py.NamedType "receiptsFrom" Rfc2634.ReceiptsFrom.call,
    Py.NamedType "receiptsTo" ((Py.univ.SequenceOf.call.setComponentTypeOf Rfc2634.GeneralNames.call).addSizeSpec (Py.ValueSizeConstraint (.fin 1) Rfc2634.ub_receiptsTo.bound))])

/-- rfc2634.py:290-291 `class ESSVersion(univ.Integer)` -/
def ESSVersion__0 : Py.Obj :=
  Py.univ.Integer

/-- rfc2634.py:293-295 `ESSVersion.namedValues = ...` -/
def ESSVersion : Py.Obj :=
  Rfc2634.ESSVersion__0.setNamedValues (Py.NamedValues [("v1", 1)])

/-- rfc2634.py:298 -/
def id_ct_receipt : Py.Obj :=
  (Py.univ.ObjectIdentifier.call.callArcs [1, 2, 840, 113549, 1, 9, 16, 1, 1])

/-- rfc2634.py:300-301 `class Receipt(univ.Sequence)` -/
def Receipt__0 : Py.Obj :=
  Py.univ.Sequence

/-- rfc2634.py:303-308 `Receipt.componentType = ...` -/
def Receipt : Py.Obj :=
  Rfc2634.Receipt__0.setComponentType (Py.NamedTypes [
    Py.NamedType "version" Rfc2634.ESSVersion.call,
    Py.NamedType "contentType" Rfc2634.ContentType.call,
    Py.NamedType "signedContentIdentifier" Rfc2634.ContentIdentifier.call,
    Py.NamedType "originatorSignatureValue" Py.univ.OctetString.call])

/-- rfc2634.py:314-324 -/
def _cmsAttributesMapUpdate : Py.Entries :=
  [(Rfc2634.id_aa_signingCertificate.value, Rfc2634.SigningCertificate.call.ty),
    (Rfc2634.id_aa_mlExpandHistory.value, Rfc2634.MLExpansionHistory.call.ty),
    (Rfc2634.id_aa_securityLabel.value, Rfc2634.ESSSecurityLabel.call.ty),
    (Rfc2634.id_aa_equivalentLabels.value, Rfc2634.EquivalentLabels.call.ty),
    (Rfc2634.id_aa_contentIdentifier.value, Rfc2634.ContentIdentifier.call.ty),
    (Rfc2634.id_aa_contentReference.value, Rfc2634.ContentReference.call.ty),
    (Rfc2634.id_aa_msgSigDigest.value, Rfc2634.MsgSigDigest.call.ty),
    (Rfc2634.id_aa_contentHint.value, Rfc2634.ContentHints.call.ty),
    (Rfc2634.id_aa_receiptRequest.value, Rfc2634.ReceiptRequest.call.ty)]

/-- rfc2634.py:332-334 -/
def _cmsContentTypesMapUpdate : Py.Entries :=
  [(Rfc2634.id_ct_receipt.value, Rfc2634.Receipt.call.ty)]

/-- Modules of this package imported by rfc2634.py, in textual order. -/
def imports : List Py.Ident :=
  [(Py.mod 16 "rfc5652"), (Py.mod 15 "rfc5280")]

/-- Dictionary operations executed when rfc2634.py is imported, in program order. -/
def effects : List Py.Effect :=
  [.create (Py.map 31 "rfc2634._cmsAttributesMapUpdate") Rfc2634._cmsAttributesMapUpdate /- rfc2634.py:314-324 -/,
   .update (Py.map 8 "rfc5652.cmsAttributesMap") Rfc2634._cmsAttributesMapUpdate /- rfc2634.py:326 -/,
   .create (Py.map 32 "rfc2634._cmsContentTypesMapUpdate") Rfc2634._cmsContentTypesMapUpdate /- rfc2634.py:332-334 -/,
   .update (Py.map 13 "rfc5652.cmsContentTypesMap") Rfc2634._cmsContentTypesMapUpdate /- rfc2634.py:336 -/]

/-- ASN.1 types rfc2634.py binds at module level (final version of each name), plus nested classes. -/
def classes : List (String × Py.Obj) :=
  [("rfc2634.ContentType", Rfc2634.ContentType),
   ("rfc2634.IssuerAndSerialNumber", Rfc2634.IssuerAndSerialNumber),
   ("rfc2634.SubjectKeyIdentifier", Rfc2634.SubjectKeyIdentifier),
   ("rfc2634.PolicyInformation", Rfc2634.PolicyInformation),
   ("rfc2634.GeneralNames", Rfc2634.GeneralNames),
   ("rfc2634.CertificateSerialNumber", Rfc2634.CertificateSerialNumber),
   ("rfc2634.Hash", Rfc2634.Hash),
   ("rfc2634.IssuerSerial", Rfc2634.IssuerSerial),
   ("rfc2634.ESSCertID", Rfc2634.ESSCertID),
   ("rfc2634.SigningCertificate", Rfc2634.SigningCertificate),
   ("rfc2634.EntityIdentifier", Rfc2634.EntityIdentifier),
   ("rfc2634.MLReceiptPolicy", Rfc2634.MLReceiptPolicy),
   ("rfc2634.MLData", Rfc2634.MLData),
   ("rfc2634.MLExpansionHistory", Rfc2634.MLExpansionHistory),
   ("rfc2634.ESSPrivacyMark", Rfc2634.ESSPrivacyMark),
   ("rfc2634.SecurityClassification", Rfc2634.SecurityClassification),
   ("rfc2634.SecurityPolicyIdentifier", Rfc2634.SecurityPolicyIdentifier),
   ("rfc2634.SecurityCategory", Rfc2634.SecurityCategory),
   ("rfc2634.SecurityCategories", Rfc2634.SecurityCategories),
   ("rfc2634.ESSSecurityLabel", Rfc2634.ESSSecurityLabel),
   ("rfc2634.EquivalentLabels", Rfc2634.EquivalentLabels),
   ("rfc2634.ContentIdentifier", Rfc2634.ContentIdentifier),
   ("rfc2634.ContentReference", Rfc2634.ContentReference),
   ("rfc2634.MsgSigDigest", Rfc2634.MsgSigDigest),
   ("rfc2634.ContentHints", Rfc2634.ContentHints),
   ("rfc2634.AllOrFirstTier", Rfc2634.AllOrFirstTier),
   ("rfc2634.ReceiptsFrom", Rfc2634.ReceiptsFrom),
   ("rfc2634.ReceiptRequest", Rfc2634.ReceiptRequest),
   ("rfc2634.ESSVersion", Rfc2634.ESSVersion),
   ("rfc2634.Receipt", Rfc2634.Receipt)]

/-- pyasn1 instances rfc2634.py binds at module level. -/
def objects : List (String × Py.Obj) :=
  [("rfc2634.id_aa_signingCertificate", Rfc2634.id_aa_signingCertificate),
   ("rfc2634.id_aa_mlExpandHistory", Rfc2634.id_aa_mlExpandHistory),
   ("rfc2634.ub_ml_expansion_history", Rfc2634.ub_ml_expansion_history),
   ("rfc2634.id_aa_securityLabel", Rfc2634.id_aa_securityLabel),
   ("rfc2634.ub_privacy_mark_length", Rfc2634.ub_privacy_mark_length),
   ("rfc2634.ub_security_categories", Rfc2634.ub_security_categories),
   ("rfc2634.ub_integer_options", Rfc2634.ub_integer_options),
   ("rfc2634.id_aa_equivalentLabels", Rfc2634.id_aa_equivalentLabels),
   ("rfc2634.id_aa_contentIdentifier", Rfc2634.id_aa_contentIdentifier),
   ("rfc2634.id_aa_contentReference", Rfc2634.id_aa_contentReference),
   ("rfc2634.id_aa_msgSigDigest", Rfc2634.id_aa_msgSigDigest),
   ("rfc2634.id_aa_contentHint", Rfc2634.id_aa_contentHint),
   ("rfc2634.id_aa_receiptRequest", Rfc2634.id_aa_receiptRequest),
   ("rfc2634.ub_receiptsTo", Rfc2634.ub_receiptsTo),
   ("rfc2634.id_ct_receipt", Rfc2634.id_ct_receipt)]

/-- pyasn1 instances rfc2634.py fills in by item assignment. -/
def protos : List (String × Py.Proto) :=
  []

/-- Every place of rfc2634.py that instantiates a class of the package: where, the class as it is
at that point, and the class as it is when the import has finished. -/
def snapshots : List Py.Snapshot :=
  [⟨"rfc2634.py:55", Rfc2634.GeneralNames, Rfc2634.GeneralNames⟩,
   ⟨"rfc2634.py:56", Rfc2634.CertificateSerialNumber, Rfc2634.CertificateSerialNumber⟩,
   ⟨"rfc2634.py:64", Rfc2634.Hash, Rfc2634.Hash⟩,
   ⟨"rfc2634.py:65", Rfc2634.IssuerSerial, Rfc2634.IssuerSerial⟩,
   ⟨"rfc2634.py:74", Rfc2634.ESSCertID, Rfc2634.ESSCertID⟩,
   ⟨"rfc2634.py:76", Rfc2634.PolicyInformation, Rfc2634.PolicyInformation⟩,
   ⟨"rfc2634.py:91", Rfc2634.IssuerAndSerialNumber, Rfc2634.IssuerAndSerialNumber⟩,
   ⟨"rfc2634.py:92", Rfc2634.SubjectKeyIdentifier, Rfc2634.SubjectKeyIdentifier⟩,
   ⟨"rfc2634.py:103", Rfc2634.GeneralNames, Rfc2634.GeneralNames⟩,
   ⟨"rfc2634.py:107", Rfc2634.GeneralNames, Rfc2634.GeneralNames⟩,
   ⟨"rfc2634.py:117", Rfc2634.EntityIdentifier, Rfc2634.EntityIdentifier⟩,
   ⟨"rfc2634.py:119", Rfc2634.MLReceiptPolicy, Rfc2634.MLReceiptPolicy⟩,
   ⟨"rfc2634.py:125", Rfc2634.MLData, Rfc2634.MLData⟩,
   ⟨"rfc2634.py:184", Rfc2634.SecurityCategory, Rfc2634.SecurityCategory⟩,
   ⟨"rfc2634.py:192", Rfc2634.SecurityPolicyIdentifier, Rfc2634.SecurityPolicyIdentifier⟩,
   ⟨"rfc2634.py:193", Rfc2634.SecurityClassification, Rfc2634.SecurityClassification⟩,
   ⟨"rfc2634.py:194", Rfc2634.ESSPrivacyMark, Rfc2634.ESSPrivacyMark⟩,
   ⟨"rfc2634.py:195", Rfc2634.SecurityCategories, Rfc2634.SecurityCategories⟩,
   ⟨"rfc2634.py:206", Rfc2634.ESSSecurityLabel, Rfc2634.ESSSecurityLabel⟩,
   ⟨"rfc2634.py:225", Rfc2634.ContentType, Rfc2634.ContentType⟩,
   ⟨"rfc2634.py:226", Rfc2634.ContentIdentifier, Rfc2634.ContentIdentifier⟩,
   ⟨"rfc2634.py:248", Rfc2634.ContentType, Rfc2634.ContentType⟩,
   ⟨"rfc2634.py:267", Rfc2634.AllOrFirstTier, Rfc2634.AllOrFirstTier⟩,
   ⟨"rfc2634.py:270", Rfc2634.GeneralNames, Rfc2634.GeneralNames⟩,
   ⟨"rfc2634.py:283", Rfc2634.ContentIdentifier, Rfc2634.ContentIdentifier⟩,
   ⟨"rfc2634.py:284", Rfc2634.ReceiptsFrom, Rfc2634.ReceiptsFrom⟩,
   ⟨"rfc2634.py:285", Rfc2634.GeneralNames, Rfc2634.GeneralNames⟩,
   ⟨"rfc2634.py:304", Rfc2634.ESSVersion, Rfc2634.ESSVersion⟩,
   ⟨"rfc2634.py:305", Rfc2634.ContentType, Rfc2634.ContentType⟩,
   ⟨"rfc2634.py:306", Rfc2634.ContentIdentifier, Rfc2634.ContentIdentifier⟩,
   ⟨"rfc2634.py:315", Rfc2634.SigningCertificate, Rfc2634.SigningCertificate⟩,
   ⟨"rfc2634.py:316", Rfc2634.MLExpansionHistory, Rfc2634.MLExpansionHistory⟩,
   ⟨"rfc2634.py:317", Rfc2634.ESSSecurityLabel, Rfc2634.ESSSecurityLabel⟩,
   ⟨"rfc2634.py:318", Rfc2634.EquivalentLabels, Rfc2634.EquivalentLabels⟩,
   ⟨"rfc2634.py:319", Rfc2634.ContentIdentifier, Rfc2634.ContentIdentifier⟩,
   ⟨"rfc2634.py:320", Rfc2634.ContentReference, Rfc2634.ContentReference⟩,
   ⟨"rfc2634.py:321", Rfc2634.MsgSigDigest, Rfc2634.MsgSigDigest⟩,
   ⟨"rfc2634.py:322", Rfc2634.ContentHints, Rfc2634.ContentHints⟩,
   ⟨"rfc2634.py:323", Rfc2634.ReceiptRequest, Rfc2634.ReceiptRequest⟩,
   ⟨"rfc2634.py:333", Rfc2634.Receipt, Rfc2634.Receipt⟩]

/-- Functions rfc2634.py defines. -/
def builders : List (String × (List Py.OidArg → Py.Obj)) :=
  []

def asModule : Py.Module :=
  { id := (Py.mod 17 "rfc2634"), imports := imports, effects := effects, classes := classes, objects := objects, protos := protos, snapshots := snapshots, builders := builders }

end Rfc2634
end Verif
