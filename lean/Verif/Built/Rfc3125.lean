import Verif.Spec.Built
import Verif.Std.Rfc3125
import Verif.Built.Rfc3280
import Verif.Std.Rfc3280

/-! What rfc3125.py implements, where that is not the standard (generated by tools/builtgen.py). -/

namespace Verif
namespace Built
namespace Rfc3125

open Asn1 Verif.Std Spec.X680 Spec.Built

def description : Description :=
  ⟨Verif.Rfc3125.asModule,
   [⟨"rfc3125.AlgorithmIdentifier", Verif.Rfc3125.AlgorithmIdentifier, Std.Rfc3280.AlgorithmIdentifier⟩,
    ⟨"rfc3125.Attribute", Verif.Rfc3125.Attribute, Std.Rfc3280.Attribute⟩,
    ⟨"rfc3125.AttributeType", Verif.Rfc3125.AttributeType, Std.Rfc3280.AttributeType⟩,
    ⟨"rfc3125.AttributeTypeAndValue", Verif.Rfc3125.AttributeTypeAndValue, Std.Rfc3280.AttributeTypeAndValue⟩,
    ⟨"rfc3125.AttributeValue", Verif.Rfc3125.AttributeValue, Std.Rfc3280.AttributeValue⟩,
    ⟨"rfc3125.Certificate", Verif.Rfc3125.Certificate, Std.Rfc3280.Certificate⟩,
    ⟨"rfc3125.CertificateList", Verif.Rfc3125.CertificateList, Std.Rfc3280.CertificateList⟩,
    ⟨"rfc3125.DirectoryString", Verif.Rfc3125.DirectoryString, Std.Rfc3280.DirectoryString⟩,
    ⟨"rfc3125.GeneralName", Verif.Rfc3125.GeneralName, Std.Rfc3280.GeneralName⟩,
    ⟨"rfc3125.GeneralNames", Verif.Rfc3125.GeneralNames, Std.Rfc3280.GeneralNames⟩,
    ⟨"rfc3125.Name", Verif.Rfc3125.Name, Std.Rfc3280.Name⟩,
    ⟨"rfc3125.PolicyInformation", Verif.Rfc3125.PolicyInformation, Built.Rfc3280.PolicyInformation⟩,
    ⟨"rfc3125.CertPolicyId", Verif.Rfc3125.CertPolicyId, Std.Rfc3280.CertPolicyId⟩,
    ⟨"rfc3125.AcceptablePolicySet", Verif.Rfc3125.AcceptablePolicySet, Std.Rfc3125.AcceptablePolicySet⟩,
    ⟨"rfc3125.SignPolExtn", Verif.Rfc3125.SignPolExtn, Std.Rfc3125.SignPolExtn⟩,
    ⟨"rfc3125.SignPolExtensions", Verif.Rfc3125.SignPolExtensions, Std.Rfc3125.SignPolExtensions⟩,
    ⟨"rfc3125.AlgAndLength", Verif.Rfc3125.AlgAndLength, Std.Rfc3125.AlgAndLength⟩,
    ⟨"rfc3125.AlgorithmConstraints", Verif.Rfc3125.AlgorithmConstraints, Std.Rfc3125.AlgorithmConstraints⟩,
    ⟨"rfc3125.AlgorithmConstraintSet", Verif.Rfc3125.AlgorithmConstraintSet, Std.Rfc3125.AlgorithmConstraintSet⟩,
    ⟨"rfc3125.AttributeValueConstraints", Verif.Rfc3125.AttributeValueConstraints, Std.Rfc3125.AttributeValueConstraints⟩,
    ⟨"rfc3125.AttributeTypeConstraints", Verif.Rfc3125.AttributeTypeConstraints, Std.Rfc3125.AttributeTypeConstraints⟩,
    ⟨"rfc3125.AttributeConstraints", Verif.Rfc3125.AttributeConstraints, Std.Rfc3125.AttributeConstraints⟩,
    ⟨"rfc3125.HowCertAttribute", Verif.Rfc3125.HowCertAttribute, Std.Rfc3125.HowCertAttribute⟩,
    ⟨"rfc3125.SkipCerts", Verif.Rfc3125.SkipCerts, Std.Rfc3125.SkipCerts⟩,
    ⟨"rfc3125.PolicyConstraints", Verif.Rfc3125.PolicyConstraints, Std.Rfc3125.PolicyConstraints⟩,
    ⟨"rfc3125.BaseDistance", Verif.Rfc3125.BaseDistance, Std.Rfc3125.BaseDistance⟩,
    ⟨"rfc3125.GeneralSubtree", Verif.Rfc3125.GeneralSubtree, Std.Rfc3125.GeneralSubtree⟩,
    ⟨"rfc3125.GeneralSubtrees", Verif.Rfc3125.GeneralSubtrees, Std.Rfc3125.GeneralSubtrees⟩,
    ⟨"rfc3125.NameConstraints", Verif.Rfc3125.NameConstraints, Std.Rfc3125.NameConstraints⟩,
    ⟨"rfc3125.PathLenConstraint", Verif.Rfc3125.PathLenConstraint, Std.Rfc3125.PathLenConstraint⟩,
    ⟨"rfc3125.CertificateTrustPoint", Verif.Rfc3125.CertificateTrustPoint, Std.Rfc3125.CertificateTrustPoint⟩,
    ⟨"rfc3125.CertificateTrustTrees", Verif.Rfc3125.CertificateTrustTrees, Std.Rfc3125.CertificateTrustTrees⟩,
    ⟨"rfc3125.EnuRevReq", Verif.Rfc3125.EnuRevReq, Std.Rfc3125.EnuRevReq⟩,
    ⟨"rfc3125.RevReq", Verif.Rfc3125.RevReq, Std.Rfc3125.RevReq⟩,
    ⟨"rfc3125.CertRevReq", Verif.Rfc3125.CertRevReq, Std.Rfc3125.CertRevReq⟩,
    ⟨"rfc3125.AttributeTrustCondition", Verif.Rfc3125.AttributeTrustCondition, Std.Rfc3125.AttributeTrustCondition⟩,
    ⟨"rfc3125.CMSAttrs", Verif.Rfc3125.CMSAttrs, Std.Rfc3125.CMSAttrs⟩,
    ⟨"rfc3125.CertInfoReq", Verif.Rfc3125.CertInfoReq, Std.Rfc3125.CertInfoReq⟩,
    ⟨"rfc3125.CertRefReq", Verif.Rfc3125.CertRefReq, Std.Rfc3125.CertRefReq⟩,
    ⟨"rfc3125.DeltaTime", Verif.Rfc3125.DeltaTime, Std.Rfc3125.DeltaTime⟩,
    ⟨"rfc3125.TimestampTrustCondition", Verif.Rfc3125.TimestampTrustCondition, Std.Rfc3125.TimestampTrustCondition⟩,
    ⟨"rfc3125.SignerRules", Verif.Rfc3125.SignerRules, Std.Rfc3125.SignerRules⟩,
    ⟨"rfc3125.MandatedUnsignedAttr", Verif.Rfc3125.MandatedUnsignedAttr, Std.Rfc3125.MandatedUnsignedAttr⟩,
    ⟨"rfc3125.VerifierRules", Verif.Rfc3125.VerifierRules, Std.Rfc3125.VerifierRules⟩,
    ⟨"rfc3125.SignerAndVerifierRules", Verif.Rfc3125.SignerAndVerifierRules, Std.Rfc3125.SignerAndVerifierRules⟩,
    ⟨"rfc3125.SigningCertTrustCondition", Verif.Rfc3125.SigningCertTrustCondition, Std.Rfc3125.SigningCertTrustCondition⟩,
    ⟨"rfc3125.CommitmentTypeIdentifier", Verif.Rfc3125.CommitmentTypeIdentifier, Std.Rfc3125.CommitmentTypeIdentifier⟩,
    ⟨"rfc3125.FieldOfApplication", Verif.Rfc3125.FieldOfApplication, Std.Rfc3125.FieldOfApplication⟩,
    ⟨"rfc3125.CommitmentType", Verif.Rfc3125.CommitmentType, Std.Rfc3125.CommitmentType⟩,
    ⟨"rfc3125.SelectedCommitmentTypes", Verif.Rfc3125.SelectedCommitmentTypes, Std.Rfc3125.SelectedCommitmentTypes⟩,
    ⟨"rfc3125.CommitmentRule", Verif.Rfc3125.CommitmentRule, Std.Rfc3125.CommitmentRule⟩,
    ⟨"rfc3125.CommitmentRules", Verif.Rfc3125.CommitmentRules, Std.Rfc3125.CommitmentRules⟩,
    ⟨"rfc3125.CommonRules", Verif.Rfc3125.CommonRules, Std.Rfc3125.CommonRules⟩,
    ⟨"rfc3125.PolicyIssuerName", Verif.Rfc3125.PolicyIssuerName, Std.Rfc3125.PolicyIssuerName⟩,
    ⟨"rfc3125.SignPolicyHash", Verif.Rfc3125.SignPolicyHash, Std.Rfc3125.SignPolicyHash⟩,
    ⟨"rfc3125.SignPolicyId", Verif.Rfc3125.SignPolicyId, Std.Rfc3125.SignPolicyId⟩,
    ⟨"rfc3125.SigningPeriod", Verif.Rfc3125.SigningPeriod, Std.Rfc3125.SigningPeriod⟩,
    ⟨"rfc3125.SignatureValidationPolicy", Verif.Rfc3125.SignatureValidationPolicy, Std.Rfc3125.SignatureValidationPolicy⟩,
    ⟨"rfc3125.SignPolicyInfo", Verif.Rfc3125.SignPolicyInfo, Std.Rfc3125.SignPolicyInfo⟩,
    ⟨"rfc3125.SignaturePolicy", Verif.Rfc3125.SignaturePolicy, Std.Rfc3125.SignaturePolicy⟩]⟩

end Rfc3125
end Built
end Verif
