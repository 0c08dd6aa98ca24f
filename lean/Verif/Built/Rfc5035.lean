import Verif.Spec.Built
import Verif.Std.Rfc5035
import Verif.Built.Rfc2634
import Verif.Built.Rfc5280
import Verif.Std.Rfc2634
import Verif.Std.Rfc5280
import Verif.Std.Rfc5652

/-! What rfc5035.py implements, where that is not the standard (generated by tools/builtgen.py). -/

namespace Verif
namespace Built
namespace Rfc5035

open Asn1 Verif.Std Spec.X680 Spec.Built

/-- `ESSCertIDv2 ::=`, changed or supplied -/
def ESSCertIDv2 : Ty :=
  SEQUENCE [
    default "hashAlgorithm" Std.Rfc5280.AlgorithmIdentifier (.record (.ofList [(.oid [2, 16, 840, 1, 101, 3, 4, 2, 1]), (holding OCTET_STRING (.octets []))])),
    mandatory "certHash" Std.Rfc2634.Hash,
    optional "issuerSerial" Std.Rfc2634.IssuerSerial]

/-- `SigningCertificateV2 ::=` -/
def SigningCertificateV2 : Ty :=
  SEQUENCE [
    mandatory "certs" (SEQUENCE_OF Built.Rfc5035.ESSCertIDv2),
    optional "policies" (SEQUENCE_OF Built.Rfc5280.PolicyInformation)]

def description : Description :=
  ⟨Verif.Rfc5035.asModule,
   [⟨"rfc5035.ContentType", Verif.Rfc5035.ContentType, Std.Rfc5652.ContentType⟩,
    ⟨"rfc5035.IssuerAndSerialNumber", Verif.Rfc5035.IssuerAndSerialNumber, Std.Rfc5652.IssuerAndSerialNumber⟩,
    ⟨"rfc5035.SubjectKeyIdentifier", Verif.Rfc5035.SubjectKeyIdentifier, Std.Rfc5652.SubjectKeyIdentifier⟩,
    ⟨"rfc5035.AlgorithmIdentifier", Verif.Rfc5035.AlgorithmIdentifier, Std.Rfc5280.AlgorithmIdentifier⟩,
    ⟨"rfc5035.PolicyInformation", Verif.Rfc5035.PolicyInformation, Built.Rfc5280.PolicyInformation⟩,
    ⟨"rfc5035.GeneralNames", Verif.Rfc5035.GeneralNames, Std.Rfc5280.GeneralNames⟩,
    ⟨"rfc5035.CertificateSerialNumber", Verif.Rfc5035.CertificateSerialNumber, Std.Rfc5280.CertificateSerialNumber⟩,
    ⟨"rfc5035.Hash", Verif.Rfc5035.Hash, Std.Rfc2634.Hash⟩,
    ⟨"rfc5035.IssuerSerial", Verif.Rfc5035.IssuerSerial, Std.Rfc2634.IssuerSerial⟩,
    ⟨"rfc5035.ESSCertID", Verif.Rfc5035.ESSCertID, Std.Rfc2634.ESSCertID⟩,
    ⟨"rfc5035.SigningCertificate", Verif.Rfc5035.SigningCertificate, Built.Rfc2634.SigningCertificate⟩,
    ⟨"rfc5035.ESSCertIDv2", Verif.Rfc5035.ESSCertIDv2, Built.Rfc5035.ESSCertIDv2⟩,
    ⟨"rfc5035.SigningCertificateV2", Verif.Rfc5035.SigningCertificateV2, Built.Rfc5035.SigningCertificateV2⟩,
    ⟨"rfc5035.EntityIdentifier", Verif.Rfc5035.EntityIdentifier, Std.Rfc2634.EntityIdentifier⟩,
    ⟨"rfc5035.MLReceiptPolicy", Verif.Rfc5035.MLReceiptPolicy, Std.Rfc2634.MLReceiptPolicy⟩,
    ⟨"rfc5035.MLData", Verif.Rfc5035.MLData, Std.Rfc2634.MLData⟩,
    ⟨"rfc5035.MLExpansionHistory", Verif.Rfc5035.MLExpansionHistory, Std.Rfc2634.MLExpansionHistory⟩,
    ⟨"rfc5035.ESSPrivacyMark", Verif.Rfc5035.ESSPrivacyMark, Std.Rfc2634.ESSPrivacyMark⟩,
    ⟨"rfc5035.SecurityClassification", Verif.Rfc5035.SecurityClassification, Std.Rfc2634.SecurityClassification⟩,
    ⟨"rfc5035.SecurityPolicyIdentifier", Verif.Rfc5035.SecurityPolicyIdentifier, Std.Rfc2634.SecurityPolicyIdentifier⟩,
    ⟨"rfc5035.SecurityCategory", Verif.Rfc5035.SecurityCategory, Built.Rfc2634.SecurityCategory⟩,
    ⟨"rfc5035.SecurityCategories", Verif.Rfc5035.SecurityCategories, Built.Rfc2634.SecurityCategories⟩,
    ⟨"rfc5035.ESSSecurityLabel", Verif.Rfc5035.ESSSecurityLabel, Built.Rfc2634.ESSSecurityLabel⟩,
    ⟨"rfc5035.EquivalentLabels", Verif.Rfc5035.EquivalentLabels, Built.Rfc2634.EquivalentLabels⟩,
    ⟨"rfc5035.ContentIdentifier", Verif.Rfc5035.ContentIdentifier, Std.Rfc2634.ContentIdentifier⟩,
    ⟨"rfc5035.ContentReference", Verif.Rfc5035.ContentReference, Std.Rfc2634.ContentReference⟩,
    ⟨"rfc5035.MsgSigDigest", Verif.Rfc5035.MsgSigDigest, Std.Rfc2634.MsgSigDigest⟩,
    ⟨"rfc5035.ContentHints", Verif.Rfc5035.ContentHints, Std.Rfc2634.ContentHints⟩,
    ⟨"rfc5035.AllOrFirstTier", Verif.Rfc5035.AllOrFirstTier, Std.Rfc2634.AllOrFirstTier⟩,
    ⟨"rfc5035.ReceiptsFrom", Verif.Rfc5035.ReceiptsFrom, Std.Rfc2634.ReceiptsFrom⟩,
    ⟨"rfc5035.ReceiptRequest", Verif.Rfc5035.ReceiptRequest, Std.Rfc2634.ReceiptRequest⟩,
    ⟨"rfc5035.ESSVersion", Verif.Rfc5035.ESSVersion, Std.Rfc2634.ESSVersion⟩,
    ⟨"rfc5035.Receipt", Verif.Rfc5035.Receipt, Std.Rfc2634.Receipt⟩]⟩

end Rfc5035
end Built
end Verif
