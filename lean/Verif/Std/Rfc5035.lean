import Verif.Spec.Grade
import Verif.Gen.Rfc5035
import Verif.Std.Rfc2634
import Verif.Std.Rfc5280
import Verif.Std.Rfc5652

/-! The ASN.1 of tools/std/rfc5035.asn1 (generated by tools/stdgen.py). -/

namespace Verif
namespace Std
namespace Rfc5035

open Asn1 Spec.X680

/-- `ESSCertIDv2 ::=` -/
def ESSCertIDv2 : Ty :=
  SEQUENCE [
    default "hashAlgorithm" Std.Rfc5280.AlgorithmIdentifier (.record (.ofList [(.oid [2, 16, 840, 1, 101, 3, 4, 2, 1]), .absent])),
    mandatory "certHash" Std.Rfc2634.Hash,
    optional "issuerSerial" Std.Rfc2634.IssuerSerial]

/-- `SigningCertificateV2 ::=` -/
def SigningCertificateV2 : Ty :=
  SEQUENCE [
    mandatory "certs" (SEQUENCE_OF ESSCertIDv2),
    optional "policies" (SEQUENCE_OF Std.Rfc5280.PolicyInformation)]

/-- Classes of rfc5035.py and the types of the standard they implement. -/
def entries : List Entry :=
  [⟨"rfc5035.ContentType", Verif.Rfc5035.ContentType, Std.Rfc5652.ContentType, .same, false⟩,
   ⟨"rfc5035.IssuerAndSerialNumber", Verif.Rfc5035.IssuerAndSerialNumber, Std.Rfc5652.IssuerAndSerialNumber, .same, false⟩,
   ⟨"rfc5035.SubjectKeyIdentifier", Verif.Rfc5035.SubjectKeyIdentifier, Std.Rfc5652.SubjectKeyIdentifier, .same, false⟩,
   ⟨"rfc5035.AlgorithmIdentifier", Verif.Rfc5035.AlgorithmIdentifier, Std.Rfc5280.AlgorithmIdentifier, .same, false⟩,
   ⟨"rfc5035.PolicyInformation", Verif.Rfc5035.PolicyInformation, Std.Rfc5280.PolicyInformation, .relaxed, false⟩,
   ⟨"rfc5035.GeneralNames", Verif.Rfc5035.GeneralNames, Std.Rfc5280.GeneralNames, .same, false⟩,
   ⟨"rfc5035.CertificateSerialNumber", Verif.Rfc5035.CertificateSerialNumber, Std.Rfc5280.CertificateSerialNumber, .same, false⟩,
   ⟨"rfc5035.Hash", Verif.Rfc5035.Hash, Std.Rfc2634.Hash, .same, false⟩,
   ⟨"rfc5035.IssuerSerial", Verif.Rfc5035.IssuerSerial, Std.Rfc2634.IssuerSerial, .same, false⟩,
   ⟨"rfc5035.ESSCertID", Verif.Rfc5035.ESSCertID, Std.Rfc2634.ESSCertID, .same, false⟩,
   ⟨"rfc5035.SigningCertificate", Verif.Rfc5035.SigningCertificate, Std.Rfc2634.SigningCertificate, .relaxed, false⟩,
   ⟨"rfc5035.ESSCertIDv2", Verif.Rfc5035.ESSCertIDv2, ESSCertIDv2, (.changed [48, 2, 4, 0]), false⟩,
   ⟨"rfc5035.SigningCertificateV2", Verif.Rfc5035.SigningCertificateV2, SigningCertificateV2, (.changed [48, 6, 48, 4, 48, 2, 4, 0]), false⟩,
   ⟨"rfc5035.EntityIdentifier", Verif.Rfc5035.EntityIdentifier, Std.Rfc2634.EntityIdentifier, .same, false⟩,
   ⟨"rfc5035.MLReceiptPolicy", Verif.Rfc5035.MLReceiptPolicy, Std.Rfc2634.MLReceiptPolicy, .same, false⟩,
   ⟨"rfc5035.MLData", Verif.Rfc5035.MLData, Std.Rfc2634.MLData, .same, false⟩,
   ⟨"rfc5035.MLExpansionHistory", Verif.Rfc5035.MLExpansionHistory, Std.Rfc2634.MLExpansionHistory, .same, false⟩,
   ⟨"rfc5035.ESSPrivacyMark", Verif.Rfc5035.ESSPrivacyMark, Std.Rfc2634.ESSPrivacyMark, .same, false⟩,
   ⟨"rfc5035.SecurityClassification", Verif.Rfc5035.SecurityClassification, Std.Rfc2634.SecurityClassification, .same, false⟩,
   ⟨"rfc5035.SecurityPolicyIdentifier", Verif.Rfc5035.SecurityPolicyIdentifier, Std.Rfc2634.SecurityPolicyIdentifier, .same, false⟩,
   ⟨"rfc5035.SecurityCategory", Verif.Rfc5035.SecurityCategory, Std.Rfc2634.SecurityCategory, (.rewritten (.record (Vals.cons (.oid [1, 3]) (Vals.cons (.octets [5, 0]) (Vals.nil))))), false⟩,
   ⟨"rfc5035.SecurityCategories", Verif.Rfc5035.SecurityCategories, Std.Rfc2634.SecurityCategories, (.rewritten (.list (Vals.cons (.record (Vals.cons (.oid [1, 3]) (Vals.cons (.octets [5, 0]) (Vals.nil)))) (Vals.nil)))), false⟩,
   ⟨"rfc5035.ESSSecurityLabel", Verif.Rfc5035.ESSSecurityLabel, Std.Rfc2634.ESSSecurityLabel, (.rewritten (.record (Vals.cons (.oid [1, 3]) (Vals.cons (.absent) (Vals.cons (.absent) (Vals.cons (.list (Vals.cons (.record (Vals.cons (.oid [1, 3]) (Vals.cons (.octets [5, 0]) (Vals.nil)))) (Vals.nil))) (Vals.nil))))))), false⟩,
   ⟨"rfc5035.EquivalentLabels", Verif.Rfc5035.EquivalentLabels, Std.Rfc2634.EquivalentLabels, (.rewritten (.list (Vals.cons (.record (Vals.cons (.oid [1, 3]) (Vals.cons (.absent) (Vals.cons (.absent) (Vals.cons (.list (Vals.cons (.record (Vals.cons (.oid [1, 3]) (Vals.cons (.octets [5, 0]) (Vals.nil)))) (Vals.nil))) (Vals.nil)))))) (Vals.nil)))), false⟩,
   ⟨"rfc5035.ContentIdentifier", Verif.Rfc5035.ContentIdentifier, Std.Rfc2634.ContentIdentifier, .same, false⟩,
   ⟨"rfc5035.ContentReference", Verif.Rfc5035.ContentReference, Std.Rfc2634.ContentReference, .same, false⟩,
   ⟨"rfc5035.MsgSigDigest", Verif.Rfc5035.MsgSigDigest, Std.Rfc2634.MsgSigDigest, .same, false⟩,
   ⟨"rfc5035.ContentHints", Verif.Rfc5035.ContentHints, Std.Rfc2634.ContentHints, .same, false⟩,
   ⟨"rfc5035.AllOrFirstTier", Verif.Rfc5035.AllOrFirstTier, Std.Rfc2634.AllOrFirstTier, .same, false⟩,
   ⟨"rfc5035.ReceiptsFrom", Verif.Rfc5035.ReceiptsFrom, Std.Rfc2634.ReceiptsFrom, .same, false⟩,
   ⟨"rfc5035.ReceiptRequest", Verif.Rfc5035.ReceiptRequest, Std.Rfc2634.ReceiptRequest, .same, false⟩,
   ⟨"rfc5035.ESSVersion", Verif.Rfc5035.ESSVersion, Std.Rfc2634.ESSVersion, .same, false⟩,
   ⟨"rfc5035.Receipt", Verif.Rfc5035.Receipt, Std.Rfc2634.Receipt, .same, false⟩]

/-- Classes of rfc5035.py the transcription of the standard has no type for. -/
def beyond : List String :=
  []

/-- Constants of rfc5035.py and the values the standard gives them. -/
def constants : List Constant :=
  [⟨"rfc5035.id_aa_signingCertificate", Verif.Rfc5035.id_aa_signingCertificate, OBJECT_IDENTIFIER, .oid [1, 2, 840, 113549, 1, 9, 16, 2, 12], true⟩,
   ⟨"rfc5035.id_aa_signingCertificateV2", Verif.Rfc5035.id_aa_signingCertificateV2, OBJECT_IDENTIFIER, .oid [1, 2, 840, 113549, 1, 9, 16, 2, 47], true⟩,
   ⟨"rfc5035.id_aa_mlExpandHistory", Verif.Rfc5035.id_aa_mlExpandHistory, OBJECT_IDENTIFIER, .oid [1, 2, 840, 113549, 1, 9, 16, 2, 3], true⟩,
   ⟨"rfc5035.ub_ml_expansion_history", Verif.Rfc5035.ub_ml_expansion_history, INTEGER, .int 64, true⟩,
   ⟨"rfc5035.id_aa_securityLabel", Verif.Rfc5035.id_aa_securityLabel, OBJECT_IDENTIFIER, .oid [1, 2, 840, 113549, 1, 9, 16, 2, 2], true⟩,
   ⟨"rfc5035.ub_privacy_mark_length", Verif.Rfc5035.ub_privacy_mark_length, INTEGER, .int 128, true⟩,
   ⟨"rfc5035.ub_security_categories", Verif.Rfc5035.ub_security_categories, INTEGER, .int 64, true⟩,
   ⟨"rfc5035.ub_integer_options", Verif.Rfc5035.ub_integer_options, INTEGER, .int 256, true⟩,
   ⟨"rfc5035.id_aa_equivalentLabels", Verif.Rfc5035.id_aa_equivalentLabels, OBJECT_IDENTIFIER, .oid [1, 2, 840, 113549, 1, 9, 16, 2, 9], true⟩,
   ⟨"rfc5035.id_aa_contentIdentifier", Verif.Rfc5035.id_aa_contentIdentifier, OBJECT_IDENTIFIER, .oid [1, 2, 840, 113549, 1, 9, 16, 2, 7], true⟩,
   ⟨"rfc5035.id_aa_contentReference", Verif.Rfc5035.id_aa_contentReference, OBJECT_IDENTIFIER, .oid [1, 2, 840, 113549, 1, 9, 16, 2, 10], true⟩,
   ⟨"rfc5035.id_aa_msgSigDigest", Verif.Rfc5035.id_aa_msgSigDigest, OBJECT_IDENTIFIER, .oid [1, 2, 840, 113549, 1, 9, 16, 2, 5], true⟩,
   ⟨"rfc5035.id_aa_contentHint", Verif.Rfc5035.id_aa_contentHint, OBJECT_IDENTIFIER, .oid [1, 2, 840, 113549, 1, 9, 16, 2, 4], true⟩,
   ⟨"rfc5035.id_aa_receiptRequest", Verif.Rfc5035.id_aa_receiptRequest, OBJECT_IDENTIFIER, .oid [1, 2, 840, 113549, 1, 9, 16, 2, 1], true⟩,
   ⟨"rfc5035.ub_receiptsTo", Verif.Rfc5035.ub_receiptsTo, INTEGER, .int 16, true⟩,
   ⟨"rfc5035.id_ct_receipt", Verif.Rfc5035.id_ct_receipt, OBJECT_IDENTIFIER, .oid [1, 2, 840, 113549, 1, 9, 16, 1, 1], true⟩]

/-- Constants of rfc5035.py the transcription of the standard has no value for. -/
def others : List String :=
  ["rfc5035.sha256AlgId"]

def standard : Standard := ⟨Verif.Rfc5035.asModule, entries, beyond, constants, others⟩

end Rfc5035
end Std
end Verif
