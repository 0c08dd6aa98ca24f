import Verif.Spec.Grade
import Verif.Gen.Rfc2634
import Verif.Std.Rfc5280
import Verif.Std.Rfc5652

/-! The ASN.1 of tools/std/rfc2634.asn1 (generated by tools/stdgen.py). -/

namespace Verif
namespace Std
namespace Rfc2634

open Asn1 Spec.X680

/-- `ContentIdentifier ::=` -/
def ContentIdentifier : Ty :=
  OCTET_STRING

/-- `AllOrFirstTier ::=` -/
def AllOrFirstTier : Ty :=
  named [("allReceipts", 0), ("firstTierRecipients", 1)] INTEGER

/-- `ReceiptsFrom ::=` -/
def ReceiptsFrom : Ty :=
  CHOICE [
    mandatory "allOrFirstTier" (implicit .context 0 AllOrFirstTier),
    mandatory "receiptList" (implicit .context 1 (SEQUENCE_OF Std.Rfc5280.GeneralNames))]

/-- `ReceiptRequest ::=` -/
def ReceiptRequest : Ty :=
  SEQUENCE [
    mandatory "signedContentIdentifier" ContentIdentifier,
    mandatory "receiptsFrom" ReceiptsFrom,
    mandatory "receiptsTo" (constrained (SIZE 1 16) (SEQUENCE_OF Std.Rfc5280.GeneralNames))]

/-- `ESSVersion ::=` -/
def ESSVersion : Ty :=
  named [("v1", 1)] INTEGER

/-- `Receipt ::=` -/
def Receipt : Ty :=
  SEQUENCE [
    mandatory "version" ESSVersion,
    mandatory "contentType" Std.Rfc5652.ContentType,
    mandatory "signedContentIdentifier" ContentIdentifier,
    mandatory "originatorSignatureValue" OCTET_STRING]

/-- `ContentHints ::=` -/
def ContentHints : Ty :=
  SEQUENCE [
    optional "contentDescription" (constrained (SIZE_MAX 1) UTF8String),
    mandatory "contentType" Std.Rfc5652.ContentType]

/-- `MsgSigDigest ::=` -/
def MsgSigDigest : Ty :=
  OCTET_STRING

/-- `ContentReference ::=` -/
def ContentReference : Ty :=
  SEQUENCE [
    mandatory "contentType" Std.Rfc5652.ContentType,
    mandatory "signedContentIdentifier" ContentIdentifier,
    mandatory "originatorSignatureValue" OCTET_STRING]

/-- `SecurityPolicyIdentifier ::=` -/
def SecurityPolicyIdentifier : Ty :=
  OBJECT_IDENTIFIER

/-- `SecurityClassification ::=` -/
def SecurityClassification : Ty :=
  constrained (RANGE 0 256) (named [("unmarked", 0), ("unclassified", 1), ("restricted", 2), ("confidential", 3), ("secret", 4), ("top-secret", 5)] INTEGER)

/-- `ESSPrivacyMark ::=` -/
def ESSPrivacyMark : Ty :=
  CHOICE [
    mandatory "pString" (constrained (SIZE 1 128) PrintableString),
    mandatory "utf8String" (constrained (SIZE_MAX 1) UTF8String)]

/-- `SecurityCategory ::=` -/
def SecurityCategory : Ty :=
  SEQUENCE [
    mandatory "type" (implicit .context 0 OBJECT_IDENTIFIER),
    mandatory "value" (implicit .context 1 ANY)]

/-- `SecurityCategories ::=` -/
def SecurityCategories : Ty :=
  constrained (SIZE 1 64) (SET_OF SecurityCategory)

/-- `ESSSecurityLabel ::=` -/
def ESSSecurityLabel : Ty :=
  SET [
    mandatory "security-policy-identifier" SecurityPolicyIdentifier,
    optional "security-classification" SecurityClassification,
    optional "privacy-mark" ESSPrivacyMark,
    optional "security-categories" SecurityCategories]

/-- `EquivalentLabels ::=` -/
def EquivalentLabels : Ty :=
  SEQUENCE_OF ESSSecurityLabel

/-- `EntityIdentifier ::=` -/
def EntityIdentifier : Ty :=
  CHOICE [
    mandatory "issuerAndSerialNumber" Std.Rfc5652.IssuerAndSerialNumber,
    mandatory "subjectKeyIdentifier" Std.Rfc5652.SubjectKeyIdentifier]

/-- `MLReceiptPolicy ::=` -/
def MLReceiptPolicy : Ty :=
  CHOICE [
    mandatory "none" (implicit .context 0 NULL),
    mandatory "insteadOf" (implicit .context 1 (constrained (SIZE_MAX 1) (SEQUENCE_OF Std.Rfc5280.GeneralNames))),
    mandatory "inAdditionTo" (implicit .context 2 (constrained (SIZE_MAX 1) (SEQUENCE_OF Std.Rfc5280.GeneralNames)))]

/-- `MLData ::=` -/
def MLData : Ty :=
  SEQUENCE [
    mandatory "mailListIdentifier" EntityIdentifier,
    mandatory "expansionTime" GeneralizedTime,
    optional "mlReceiptPolicy" MLReceiptPolicy]

/-- `MLExpansionHistory ::=` -/
def MLExpansionHistory : Ty :=
  constrained (SIZE 1 64) (SEQUENCE_OF MLData)

/-- `Hash ::=` -/
def Hash : Ty :=
  OCTET_STRING

/-- `IssuerSerial ::=` -/
def IssuerSerial : Ty :=
  SEQUENCE [
    mandatory "issuer" Std.Rfc5280.GeneralNames,
    mandatory "serialNumber" Std.Rfc5280.CertificateSerialNumber]

/-- `ESSCertID ::=` -/
def ESSCertID : Ty :=
  SEQUENCE [
    mandatory "certHash" Hash,
    optional "issuerSerial" IssuerSerial]

/-- `SigningCertificate ::=` -/
def SigningCertificate : Ty :=
  SEQUENCE [
    mandatory "certs" (SEQUENCE_OF ESSCertID),
    optional "policies" (SEQUENCE_OF Std.Rfc5280.PolicyInformation)]

/-- Classes of rfc2634.py and the types of the standard they implement. -/
def entries : List Entry :=
  [⟨"rfc2634.ContentType", Verif.Rfc2634.ContentType, Std.Rfc5652.ContentType, .same, false⟩,
   ⟨"rfc2634.IssuerAndSerialNumber", Verif.Rfc2634.IssuerAndSerialNumber, Std.Rfc5652.IssuerAndSerialNumber, .same, false⟩,
   ⟨"rfc2634.SubjectKeyIdentifier", Verif.Rfc2634.SubjectKeyIdentifier, Std.Rfc5652.SubjectKeyIdentifier, .same, false⟩,
   ⟨"rfc2634.PolicyInformation", Verif.Rfc2634.PolicyInformation, Std.Rfc5280.PolicyInformation, .relaxed, false⟩,
   ⟨"rfc2634.GeneralNames", Verif.Rfc2634.GeneralNames, Std.Rfc5280.GeneralNames, .same, false⟩,
   ⟨"rfc2634.CertificateSerialNumber", Verif.Rfc2634.CertificateSerialNumber, Std.Rfc5280.CertificateSerialNumber, .same, false⟩,
   ⟨"rfc2634.Hash", Verif.Rfc2634.Hash, Hash, .same, false⟩,
   ⟨"rfc2634.IssuerSerial", Verif.Rfc2634.IssuerSerial, IssuerSerial, .same, false⟩,
   ⟨"rfc2634.ESSCertID", Verif.Rfc2634.ESSCertID, ESSCertID, .same, false⟩,
   ⟨"rfc2634.SigningCertificate", Verif.Rfc2634.SigningCertificate, SigningCertificate, .relaxed, false⟩,
   ⟨"rfc2634.EntityIdentifier", Verif.Rfc2634.EntityIdentifier, EntityIdentifier, .same, false⟩,
   ⟨"rfc2634.MLReceiptPolicy", Verif.Rfc2634.MLReceiptPolicy, MLReceiptPolicy, .same, false⟩,
   ⟨"rfc2634.MLData", Verif.Rfc2634.MLData, MLData, .same, false⟩,
   ⟨"rfc2634.MLExpansionHistory", Verif.Rfc2634.MLExpansionHistory, MLExpansionHistory, .same, false⟩,
   ⟨"rfc2634.ESSPrivacyMark", Verif.Rfc2634.ESSPrivacyMark, ESSPrivacyMark, .same, false⟩,
   ⟨"rfc2634.SecurityClassification", Verif.Rfc2634.SecurityClassification, SecurityClassification, .same, false⟩,
   ⟨"rfc2634.SecurityPolicyIdentifier", Verif.Rfc2634.SecurityPolicyIdentifier, SecurityPolicyIdentifier, .same, false⟩,
   ⟨"rfc2634.SecurityCategory", Verif.Rfc2634.SecurityCategory, SecurityCategory, (.rewritten (.record (Vals.cons (.oid [1, 3]) (Vals.cons (.octets [5, 0]) (Vals.nil))))), false⟩,
   ⟨"rfc2634.SecurityCategories", Verif.Rfc2634.SecurityCategories, SecurityCategories, (.rewritten (.list (Vals.cons (.record (Vals.cons (.oid [1, 3]) (Vals.cons (.octets [5, 0]) (Vals.nil)))) (Vals.nil)))), false⟩,
   ⟨"rfc2634.ESSSecurityLabel", Verif.Rfc2634.ESSSecurityLabel, ESSSecurityLabel, (.rewritten (.record (Vals.cons (.oid [1, 3]) (Vals.cons (.absent) (Vals.cons (.absent) (Vals.cons (.list (Vals.cons (.record (Vals.cons (.oid [1, 3]) (Vals.cons (.octets [5, 0]) (Vals.nil)))) (Vals.nil))) (Vals.nil))))))), false⟩,
   ⟨"rfc2634.EquivalentLabels", Verif.Rfc2634.EquivalentLabels, EquivalentLabels, (.rewritten (.list (Vals.cons (.record (Vals.cons (.oid [1, 3]) (Vals.cons (.absent) (Vals.cons (.absent) (Vals.cons (.list (Vals.cons (.record (Vals.cons (.oid [1, 3]) (Vals.cons (.octets [5, 0]) (Vals.nil)))) (Vals.nil))) (Vals.nil)))))) (Vals.nil)))), false⟩,
   ⟨"rfc2634.ContentIdentifier", Verif.Rfc2634.ContentIdentifier, ContentIdentifier, .same, false⟩,
   ⟨"rfc2634.ContentReference", Verif.Rfc2634.ContentReference, ContentReference, .same, false⟩,
   ⟨"rfc2634.MsgSigDigest", Verif.Rfc2634.MsgSigDigest, MsgSigDigest, .same, false⟩,
   ⟨"rfc2634.ContentHints", Verif.Rfc2634.ContentHints, ContentHints, .same, false⟩,
   ⟨"rfc2634.AllOrFirstTier", Verif.Rfc2634.AllOrFirstTier, AllOrFirstTier, .same, false⟩,
   ⟨"rfc2634.ReceiptsFrom", Verif.Rfc2634.ReceiptsFrom, ReceiptsFrom, .same, false⟩,
   ⟨"rfc2634.ReceiptRequest", Verif.Rfc2634.ReceiptRequest, ReceiptRequest, .same, false⟩,
   ⟨"rfc2634.ESSVersion", Verif.Rfc2634.ESSVersion, ESSVersion, .same, false⟩,
   ⟨"rfc2634.Receipt", Verif.Rfc2634.Receipt, Receipt, .same, false⟩]

/-- Classes of rfc2634.py the transcription of the standard has no type for. -/
def beyond : List String :=
  []

/-- Constants of rfc2634.py and the values the standard gives them. -/
def constants : List Constant :=
  [⟨"rfc2634.id_aa_signingCertificate", Verif.Rfc2634.id_aa_signingCertificate, OBJECT_IDENTIFIER, .oid [1, 2, 840, 113549, 1, 9, 16, 2, 12], true⟩,
   ⟨"rfc2634.id_aa_mlExpandHistory", Verif.Rfc2634.id_aa_mlExpandHistory, OBJECT_IDENTIFIER, .oid [1, 2, 840, 113549, 1, 9, 16, 2, 3], true⟩,
   ⟨"rfc2634.ub_ml_expansion_history", Verif.Rfc2634.ub_ml_expansion_history, INTEGER, .int 64, true⟩,
   ⟨"rfc2634.id_aa_securityLabel", Verif.Rfc2634.id_aa_securityLabel, OBJECT_IDENTIFIER, .oid [1, 2, 840, 113549, 1, 9, 16, 2, 2], true⟩,
   ⟨"rfc2634.ub_privacy_mark_length", Verif.Rfc2634.ub_privacy_mark_length, INTEGER, .int 128, true⟩,
   ⟨"rfc2634.ub_security_categories", Verif.Rfc2634.ub_security_categories, INTEGER, .int 64, true⟩,
   ⟨"rfc2634.ub_integer_options", Verif.Rfc2634.ub_integer_options, INTEGER, .int 256, true⟩,
   ⟨"rfc2634.id_aa_equivalentLabels", Verif.Rfc2634.id_aa_equivalentLabels, OBJECT_IDENTIFIER, .oid [1, 2, 840, 113549, 1, 9, 16, 2, 9], true⟩,
   ⟨"rfc2634.id_aa_contentIdentifier", Verif.Rfc2634.id_aa_contentIdentifier, OBJECT_IDENTIFIER, .oid [1, 2, 840, 113549, 1, 9, 16, 2, 7], true⟩,
   ⟨"rfc2634.id_aa_contentReference", Verif.Rfc2634.id_aa_contentReference, OBJECT_IDENTIFIER, .oid [1, 2, 840, 113549, 1, 9, 16, 2, 10], true⟩,
   ⟨"rfc2634.id_aa_msgSigDigest", Verif.Rfc2634.id_aa_msgSigDigest, OBJECT_IDENTIFIER, .oid [1, 2, 840, 113549, 1, 9, 16, 2, 5], true⟩,
   ⟨"rfc2634.id_aa_contentHint", Verif.Rfc2634.id_aa_contentHint, OBJECT_IDENTIFIER, .oid [1, 2, 840, 113549, 1, 9, 16, 2, 4], true⟩,
   ⟨"rfc2634.id_aa_receiptRequest", Verif.Rfc2634.id_aa_receiptRequest, OBJECT_IDENTIFIER, .oid [1, 2, 840, 113549, 1, 9, 16, 2, 1], true⟩,
   ⟨"rfc2634.ub_receiptsTo", Verif.Rfc2634.ub_receiptsTo, INTEGER, .int 16, true⟩,
   ⟨"rfc2634.id_ct_receipt", Verif.Rfc2634.id_ct_receipt, OBJECT_IDENTIFIER, .oid [1, 2, 840, 113549, 1, 9, 16, 1, 1], true⟩]

/-- Constants of rfc2634.py the transcription of the standard has no value for. -/
def others : List String :=
  []

def standard : Standard := ⟨Verif.Rfc2634.asModule, entries, beyond, constants, others⟩

end Rfc2634
end Std
end Verif
