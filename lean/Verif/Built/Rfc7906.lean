import Verif.Spec.Built
import Verif.Std.Rfc7906
import Verif.Built.Rfc2634
import Verif.Built.Rfc4108
import Verif.Built.Rfc5280
import Verif.Built.Rfc7191
import Verif.Std.Rfc2634
import Verif.Std.Rfc4108
import Verif.Std.Rfc5280
import Verif.Std.Rfc5652
import Verif.Std.Rfc6010
import Verif.Std.Rfc6019
import Verif.Std.Rfc6032
import Verif.Std.Rfc7191

/-! What rfc7906.py implements, where that is not the standard (generated by tools/builtgen.py). -/

namespace Verif
namespace Built
namespace Rfc7906

open Asn1 Verif.Std Spec.X680 Spec.Built

/-- `Classification ::=` -/
def Classification : Ty :=
  Built.Rfc2634.ESSSecurityLabel

/-- `KeyPurpose ::=`, changed or supplied -/
def KeyPurpose : Ty :=
  named [("n-a", 0), ("a", 65), ("b", 66), ("l", 76), ("m", 77), ("r", 82), ("s", 83), ("t", 84), ("v", 86), ("x", 88), ("z", 90)] ENUMERATED

def description : Description :=
  ⟨Verif.Rfc7906.asModule,
   [⟨"rfc7906.ContentHints", Verif.Rfc7906.ContentHints, Std.Rfc2634.ContentHints⟩,
    ⟨"rfc7906.SecurityPolicyIdentifier", Verif.Rfc7906.SecurityPolicyIdentifier, Std.Rfc2634.SecurityPolicyIdentifier⟩,
    ⟨"rfc7906.SecurityClassification", Verif.Rfc7906.SecurityClassification, Std.Rfc2634.SecurityClassification⟩,
    ⟨"rfc7906.ESSPrivacyMark", Verif.Rfc7906.ESSPrivacyMark, Std.Rfc2634.ESSPrivacyMark⟩,
    ⟨"rfc7906.SecurityCategories", Verif.Rfc7906.SecurityCategories, Built.Rfc2634.SecurityCategories⟩,
    ⟨"rfc7906.ESSSecurityLabel", Verif.Rfc7906.ESSSecurityLabel, Built.Rfc2634.ESSSecurityLabel⟩,
    ⟨"rfc7906.CommunityIdentifier", Verif.Rfc7906.CommunityIdentifier, Std.Rfc4108.CommunityIdentifier⟩,
    ⟨"rfc7906.CommunityIdentifiers", Verif.Rfc7906.CommunityIdentifiers, Std.Rfc4108.CommunityIdentifiers⟩,
    ⟨"rfc7906.AlgorithmIdentifier", Verif.Rfc7906.AlgorithmIdentifier, Std.Rfc5280.AlgorithmIdentifier⟩,
    ⟨"rfc7906.Name", Verif.Rfc7906.Name, Std.Rfc5280.Name⟩,
    ⟨"rfc7906.Certificate", Verif.Rfc7906.Certificate, Std.Rfc5280.Certificate⟩,
    ⟨"rfc7906.GeneralNames", Verif.Rfc7906.GeneralNames, Std.Rfc5280.GeneralNames⟩,
    ⟨"rfc7906.GeneralName", Verif.Rfc7906.GeneralName, Std.Rfc5280.GeneralName⟩,
    ⟨"rfc7906.SubjectInfoAccessSyntax", Verif.Rfc7906.SubjectInfoAccessSyntax, Std.Rfc5280.SubjectInfoAccessSyntax⟩,
    ⟨"rfc7906.CMSContentConstraints", Verif.Rfc7906.CMSContentConstraints, Std.Rfc6010.CMSContentConstraints⟩,
    ⟨"rfc7906.BinaryTime", Verif.Rfc7906.BinaryTime, Std.Rfc6019.BinaryTime⟩,
    ⟨"rfc7906.BinarySigningTime", Verif.Rfc7906.BinarySigningTime, Std.Rfc6019.BinarySigningTime⟩,
    ⟨"rfc7906.Attribute", Verif.Rfc7906.Attribute, Std.Rfc5652.Attribute⟩,
    ⟨"rfc7906.CertificateSet", Verif.Rfc7906.CertificateSet, Std.Rfc5652.CertificateSet⟩,
    ⟨"rfc7906.CertificateChoices", Verif.Rfc7906.CertificateChoices, Std.Rfc5652.CertificateChoices⟩,
    ⟨"rfc7906.ContentType", Verif.Rfc7906.ContentType, Std.Rfc5652.ContentType⟩,
    ⟨"rfc7906.MessageDigest", Verif.Rfc7906.MessageDigest, Std.Rfc5652.MessageDigest⟩,
    ⟨"rfc7906.SIREntityName", Verif.Rfc7906.SIREntityName, Std.Rfc7191.SIREntityName⟩,
    ⟨"rfc7906.KeyPkgIdentifierAndReceiptReq", Verif.Rfc7906.KeyPkgIdentifierAndReceiptReq, Std.Rfc7191.KeyPkgIdentifierAndReceiptReq⟩,
    ⟨"rfc7906.KeyProvinceV2", Verif.Rfc7906.KeyProvinceV2, Std.Rfc7906.KeyProvinceV2⟩,
    ⟨"rfc7906.ShortTitle", Verif.Rfc7906.ShortTitle, Std.Rfc7906.ShortTitle⟩,
    ⟨"rfc7906.Manifest", Verif.Rfc7906.Manifest, Std.Rfc7906.Manifest⟩,
    ⟨"rfc7906.KeyAlgorithm", Verif.Rfc7906.KeyAlgorithm, Std.Rfc7906.KeyAlgorithm⟩,
    ⟨"rfc7906.KeyPkgReceiver", Verif.Rfc7906.KeyPkgReceiver, Std.Rfc7906.KeyPkgReceiver⟩,
    ⟨"rfc7906.KeyPkgReceiversV2", Verif.Rfc7906.KeyPkgReceiversV2, Std.Rfc7906.KeyPkgReceiversV2⟩,
    ⟨"rfc7906.CharEdition", Verif.Rfc7906.CharEdition, Std.Rfc7906.CharEdition⟩,
    ⟨"rfc7906.CharEditionRange", Verif.Rfc7906.CharEditionRange, Std.Rfc7906.CharEditionRange⟩,
    ⟨"rfc7906.NumEdition", Verif.Rfc7906.NumEdition, Std.Rfc7906.NumEdition⟩,
    ⟨"rfc7906.NumEditionRange", Verif.Rfc7906.NumEditionRange, Std.Rfc7906.NumEditionRange⟩,
    ⟨"rfc7906.EditionID", Verif.Rfc7906.EditionID, Std.Rfc7906.EditionID⟩,
    ⟨"rfc7906.Register", Verif.Rfc7906.Register, Std.Rfc7906.Register⟩,
    ⟨"rfc7906.RegisterRange", Verif.Rfc7906.RegisterRange, Std.Rfc7906.RegisterRange⟩,
    ⟨"rfc7906.RegisterID", Verif.Rfc7906.RegisterID, Std.Rfc7906.RegisterID⟩,
    ⟨"rfc7906.SegmentNumber", Verif.Rfc7906.SegmentNumber, Std.Rfc7906.SegmentNumber⟩,
    ⟨"rfc7906.SegmentRange", Verif.Rfc7906.SegmentRange, Std.Rfc7906.SegmentRange⟩,
    ⟨"rfc7906.SegmentID", Verif.Rfc7906.SegmentID, Std.Rfc7906.SegmentID⟩,
    ⟨"rfc7906.TSECNomenclature", Verif.Rfc7906.TSECNomenclature, Std.Rfc7906.TSECNomenclature⟩,
    ⟨"rfc7906.KeyPurpose", Verif.Rfc7906.KeyPurpose, Built.Rfc7906.KeyPurpose⟩,
    ⟨"rfc7906.KeyUse", Verif.Rfc7906.KeyUse, Std.Rfc7906.KeyUse⟩,
    ⟨"rfc7906.TransOp", Verif.Rfc7906.TransOp, Std.Rfc7906.TransOp⟩,
    ⟨"rfc7906.KeyDistPeriod", Verif.Rfc7906.KeyDistPeriod, Std.Rfc7906.KeyDistPeriod⟩,
    ⟨"rfc7906.KeyValidityPeriod", Verif.Rfc7906.KeyValidityPeriod, Std.Rfc7906.KeyValidityPeriod⟩,
    ⟨"rfc7906.KeyDuration", Verif.Rfc7906.KeyDuration, Std.Rfc7906.KeyDuration⟩,
    ⟨"rfc7906.SecurityAttribute", Verif.Rfc7906.SecurityAttribute, Std.Rfc7906.SecurityAttribute⟩,
    ⟨"rfc7906.EnumeratedTag", Verif.Rfc7906.EnumeratedTag, Std.Rfc7906.EnumeratedTag⟩,
    ⟨"rfc7906.FreeFormField", Verif.Rfc7906.FreeFormField, Std.Rfc7906.FreeFormField⟩,
    ⟨"rfc7906.InformativeTag", Verif.Rfc7906.InformativeTag, Std.Rfc7906.InformativeTag⟩,
    ⟨"rfc7906.Classification", Verif.Rfc7906.Classification, Built.Rfc7906.Classification⟩,
    ⟨"rfc7906.SplitID", Verif.Rfc7906.SplitID, Std.Rfc7906.SplitID⟩,
    ⟨"rfc7906.KeyPkgType", Verif.Rfc7906.KeyPkgType, Std.Rfc7906.KeyPkgType⟩,
    ⟨"rfc7906.SignatureUsage", Verif.Rfc7906.SignatureUsage, Std.Rfc7906.SignatureUsage⟩,
    ⟨"rfc7906.PkiPath", Verif.Rfc7906.PkiPath, Std.Rfc7906.PkiPath⟩,
    ⟨"rfc7906.ContentDecryptKeyID", Verif.Rfc7906.ContentDecryptKeyID, Std.Rfc6032.ContentDecryptKeyID⟩]⟩

end Rfc7906
end Built
end Verif
