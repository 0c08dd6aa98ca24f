import Verif.Spec.Built
import Verif.Std.Rfc2634
import Verif.Built.Rfc5280
import Verif.Std.Rfc5280
import Verif.Std.Rfc5652

/-! What rfc2634.py implements, where that is not the standard (generated by tools/builtgen.py). -/

namespace Verif
namespace Built
namespace Rfc2634

open Asn1 Verif.Std Spec.X680 Spec.Built

/-- `SecurityCategory ::=`, changed or supplied -/
def SecurityCategory : Ty :=
  SEQUENCE [
    mandatory "type" (implicit .context 0 OBJECT_IDENTIFIER),
    mandatory "value" (primitive .context 1 ANY)]

/-- `SecurityCategories ::=` -/
def SecurityCategories : Ty :=
  constrained (SIZE 1 64) (SET_OF Built.Rfc2634.SecurityCategory)

/-- `ESSSecurityLabel ::=` -/
def ESSSecurityLabel : Ty :=
  SET [
    mandatory "security-policy-identifier" Std.Rfc2634.SecurityPolicyIdentifier,
    optional "security-classification" Std.Rfc2634.SecurityClassification,
    optional "privacy-mark" Std.Rfc2634.ESSPrivacyMark,
    optional "security-categories" Built.Rfc2634.SecurityCategories]

/-- `EquivalentLabels ::=` -/
def EquivalentLabels : Ty :=
  SEQUENCE_OF Built.Rfc2634.ESSSecurityLabel

/-- `SigningCertificate ::=` -/
def SigningCertificate : Ty :=
  SEQUENCE [
    mandatory "certs" (SEQUENCE_OF Std.Rfc2634.ESSCertID),
    optional "policies" (SEQUENCE_OF Built.Rfc5280.PolicyInformation)]

def description : Description :=
  ⟨Verif.Rfc2634.asModule,
   [⟨"rfc2634.ContentType", Verif.Rfc2634.ContentType, Std.Rfc5652.ContentType⟩,
    ⟨"rfc2634.IssuerAndSerialNumber", Verif.Rfc2634.IssuerAndSerialNumber, Std.Rfc5652.IssuerAndSerialNumber⟩,
    ⟨"rfc2634.SubjectKeyIdentifier", Verif.Rfc2634.SubjectKeyIdentifier, Std.Rfc5652.SubjectKeyIdentifier⟩,
    ⟨"rfc2634.PolicyInformation", Verif.Rfc2634.PolicyInformation, Built.Rfc5280.PolicyInformation⟩,
    ⟨"rfc2634.GeneralNames", Verif.Rfc2634.GeneralNames, Std.Rfc5280.GeneralNames⟩,
    ⟨"rfc2634.CertificateSerialNumber", Verif.Rfc2634.CertificateSerialNumber, Std.Rfc5280.CertificateSerialNumber⟩,
    ⟨"rfc2634.Hash", Verif.Rfc2634.Hash, Std.Rfc2634.Hash⟩,
    ⟨"rfc2634.IssuerSerial", Verif.Rfc2634.IssuerSerial, Std.Rfc2634.IssuerSerial⟩,
    ⟨"rfc2634.ESSCertID", Verif.Rfc2634.ESSCertID, Std.Rfc2634.ESSCertID⟩,
    ⟨"rfc2634.SigningCertificate", Verif.Rfc2634.SigningCertificate, Built.Rfc2634.SigningCertificate⟩,
    ⟨"rfc2634.EntityIdentifier", Verif.Rfc2634.EntityIdentifier, Std.Rfc2634.EntityIdentifier⟩,
    ⟨"rfc2634.MLReceiptPolicy", Verif.Rfc2634.MLReceiptPolicy, Std.Rfc2634.MLReceiptPolicy⟩,
    ⟨"rfc2634.MLData", Verif.Rfc2634.MLData, Std.Rfc2634.MLData⟩,
    ⟨"rfc2634.MLExpansionHistory", Verif.Rfc2634.MLExpansionHistory, Std.Rfc2634.MLExpansionHistory⟩,
    ⟨"rfc2634.ESSPrivacyMark", Verif.Rfc2634.ESSPrivacyMark, Std.Rfc2634.ESSPrivacyMark⟩,
    ⟨"rfc2634.SecurityClassification", Verif.Rfc2634.SecurityClassification, Std.Rfc2634.SecurityClassification⟩,
    ⟨"rfc2634.SecurityPolicyIdentifier", Verif.Rfc2634.SecurityPolicyIdentifier, Std.Rfc2634.SecurityPolicyIdentifier⟩,
    ⟨"rfc2634.SecurityCategory", Verif.Rfc2634.SecurityCategory, Built.Rfc2634.SecurityCategory⟩,
    ⟨"rfc2634.SecurityCategories", Verif.Rfc2634.SecurityCategories, Built.Rfc2634.SecurityCategories⟩,
    ⟨"rfc2634.ESSSecurityLabel", Verif.Rfc2634.ESSSecurityLabel, Built.Rfc2634.ESSSecurityLabel⟩,
    ⟨"rfc2634.EquivalentLabels", Verif.Rfc2634.EquivalentLabels, Built.Rfc2634.EquivalentLabels⟩,
    ⟨"rfc2634.ContentIdentifier", Verif.Rfc2634.ContentIdentifier, Std.Rfc2634.ContentIdentifier⟩,
    ⟨"rfc2634.ContentReference", Verif.Rfc2634.ContentReference, Std.Rfc2634.ContentReference⟩,
    ⟨"rfc2634.MsgSigDigest", Verif.Rfc2634.MsgSigDigest, Std.Rfc2634.MsgSigDigest⟩,
    ⟨"rfc2634.ContentHints", Verif.Rfc2634.ContentHints, Std.Rfc2634.ContentHints⟩,
    ⟨"rfc2634.AllOrFirstTier", Verif.Rfc2634.AllOrFirstTier, Std.Rfc2634.AllOrFirstTier⟩,
    ⟨"rfc2634.ReceiptsFrom", Verif.Rfc2634.ReceiptsFrom, Std.Rfc2634.ReceiptsFrom⟩,
    ⟨"rfc2634.ReceiptRequest", Verif.Rfc2634.ReceiptRequest, Std.Rfc2634.ReceiptRequest⟩,
    ⟨"rfc2634.ESSVersion", Verif.Rfc2634.ESSVersion, Std.Rfc2634.ESSVersion⟩,
    ⟨"rfc2634.Receipt", Verif.Rfc2634.Receipt, Std.Rfc2634.Receipt⟩]⟩

end Rfc2634
end Built
end Verif
