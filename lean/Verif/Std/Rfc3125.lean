import Verif.Spec.Grade
import Verif.Gen.Rfc3125
import Verif.Std.Rfc3280

/-! The ASN.1 of tools/std/rfc3125.asn1 (generated by tools/stdgen.py). -/

namespace Verif
namespace Std
namespace Rfc3125

open Asn1 Spec.X680

/-- `SignPolicyId ::=` -/
def SignPolicyId : Ty :=
  OBJECT_IDENTIFIER

/-- `PolicyIssuerName ::=` -/
def PolicyIssuerName : Ty :=
  Std.Rfc3280.GeneralNames

/-- `FieldOfApplication ::=` -/
def FieldOfApplication : Ty :=
  Std.Rfc3280.DirectoryString

/-- `SigningPeriod ::=` -/
def SigningPeriod : Ty :=
  SEQUENCE [
    mandatory "notBefore" GeneralizedTime,
    optional "notAfter" GeneralizedTime]

/-- `CMSAttrs ::=` -/
def CMSAttrs : Ty :=
  SEQUENCE_OF OBJECT_IDENTIFIER

/-- `CertRefReq ::=` -/
def CertRefReq : Ty :=
  named [("signerOnly", 1), ("fullPath", 2)] ENUMERATED

/-- `CertInfoReq ::=` -/
def CertInfoReq : Ty :=
  named [("none", 0), ("signerOnly", 1), ("fullPath", 2)] ENUMERATED

/-- `SignPolExtn ::=` -/
def SignPolExtn : Ty :=
  SEQUENCE [
    mandatory "extnID" OBJECT_IDENTIFIER,
    mandatory "extnValue" OCTET_STRING]

/-- `SignPolExtensions ::=` -/
def SignPolExtensions : Ty :=
  SEQUENCE_OF SignPolExtn

/-- `SignerRules ::=` -/
def SignerRules : Ty :=
  SEQUENCE [
    optional "externalSignedData" BOOLEAN,
    mandatory "mandatedSignedAttr" CMSAttrs,
    mandatory "mandatedUnsignedAttr" CMSAttrs,
    default "mandatedCertificateRef" (explicit .context 0 CertRefReq) (.int 1),
    default "mandatedCertificateInfo" (explicit .context 1 CertInfoReq) (.int 0),
    optional "signPolExtensions" (explicit .context 2 SignPolExtensions)]

/-- `MandatedUnsignedAttr ::=` -/
def MandatedUnsignedAttr : Ty :=
  CMSAttrs

/-- `VerifierRules ::=` -/
def VerifierRules : Ty :=
  SEQUENCE [
    mandatory "mandatedUnsignedAttr" MandatedUnsignedAttr,
    optional "signPolExtensions" SignPolExtensions]

/-- `SignerAndVerifierRules ::=` -/
def SignerAndVerifierRules : Ty :=
  SEQUENCE [
    mandatory "signerRules" SignerRules,
    mandatory "verifierRules" VerifierRules]

/-- `PathLenConstraint ::=` -/
def PathLenConstraint : Ty :=
  constrained (RANGE_MAX 0) INTEGER

/-- `AcceptablePolicySet ::=` -/
def AcceptablePolicySet : Ty :=
  SEQUENCE_OF Std.Rfc3280.CertPolicyId

/-- `BaseDistance ::=` -/
def BaseDistance : Ty :=
  constrained (RANGE_MAX 0) INTEGER

/-- `GeneralSubtree ::=` -/
def GeneralSubtree : Ty :=
  SEQUENCE [
    mandatory "base" Std.Rfc3280.GeneralName,
    default "minimum" (explicit .context 0 BaseDistance) (.int 0),
    optional "maximum" (explicit .context 1 BaseDistance)]

/-- `GeneralSubtrees ::=` -/
def GeneralSubtrees : Ty :=
  constrained (SIZE_MAX 1) (SEQUENCE_OF GeneralSubtree)

/-- `NameConstraints ::=` -/
def NameConstraints : Ty :=
  SEQUENCE [
    optional "permittedSubtrees" (explicit .context 0 GeneralSubtrees),
    optional "excludedSubtrees" (explicit .context 1 GeneralSubtrees)]

/-- `SkipCerts ::=` -/
def SkipCerts : Ty :=
  constrained (RANGE_MAX 0) INTEGER

/-- `PolicyConstraints ::=` -/
def PolicyConstraints : Ty :=
  SEQUENCE [
    optional "requireExplicitPolicy" (explicit .context 0 SkipCerts),
    optional "inhibitPolicyMapping" (explicit .context 1 SkipCerts)]

/-- `CertificateTrustPoint ::=` -/
def CertificateTrustPoint : Ty :=
  SEQUENCE [
    mandatory "trustpoint" Std.Rfc3280.Certificate,
    optional "pathLenConstraint" (explicit .context 0 PathLenConstraint),
    optional "acceptablePolicySet" (explicit .context 1 AcceptablePolicySet),
    optional "nameConstraints" (explicit .context 2 NameConstraints),
    optional "policyConstraints" (explicit .context 3 PolicyConstraints)]

/-- `CertificateTrustTrees ::=` -/
def CertificateTrustTrees : Ty :=
  SEQUENCE_OF CertificateTrustPoint

/-- `EnuRevReq ::=` -/
def EnuRevReq : Ty :=
  named [("clrCheck", 0), ("ocspCheck", 1), ("bothCheck", 2), ("eitherCheck", 3), ("noCheck", 4), ("other", 5)] ENUMERATED

/-- `RevReq ::=` -/
def RevReq : Ty :=
  SEQUENCE [
    mandatory "enuRevReq" EnuRevReq,
    optional "exRevReq" SignPolExtensions]

/-- `CertRevReq ::=` -/
def CertRevReq : Ty :=
  SEQUENCE [
    mandatory "endCertRevReq" RevReq,
    mandatory "caCerts" (explicit .context 0 RevReq)]

/-- `SigningCertTrustCondition ::=` -/
def SigningCertTrustCondition : Ty :=
  SEQUENCE [
    mandatory "signerTrustTrees" CertificateTrustTrees,
    mandatory "signerRevReq" CertRevReq]

/-- `DeltaTime ::=` -/
def DeltaTime : Ty :=
  SEQUENCE [
    mandatory "deltaSeconds" INTEGER,
    mandatory "deltaMinutes" INTEGER,
    mandatory "deltaHours" INTEGER,
    mandatory "deltaDays" INTEGER]

/-- `TimestampTrustCondition ::=` -/
def TimestampTrustCondition : Ty :=
  SEQUENCE [
    optional "ttsCertificateTrustTrees" (explicit .context 0 CertificateTrustTrees),
    optional "ttsRevReq" (explicit .context 1 CertRevReq),
    optional "ttsNameConstraints" (explicit .context 2 NameConstraints),
    optional "cautionPeriod" (explicit .context 3 DeltaTime),
    optional "signatureTimestampDelay" (explicit .context 4 DeltaTime)]

/-- `HowCertAttribute ::=` -/
def HowCertAttribute : Ty :=
  named [("claimedAttribute", 0), ("certifiedAttribtes", 1), ("either", 2)] ENUMERATED

/-- `AttributeTypeConstraints ::=` -/
def AttributeTypeConstraints : Ty :=
  SEQUENCE_OF Std.Rfc3280.AttributeType

/-- `AttributeValueConstraints ::=` -/
def AttributeValueConstraints : Ty :=
  SEQUENCE_OF Std.Rfc3280.AttributeTypeAndValue

/-- `AttributeConstraints ::=` -/
def AttributeConstraints : Ty :=
  SEQUENCE [
    optional "attributeTypeConstarints" (explicit .context 0 AttributeTypeConstraints),
    optional "attributeValueConstarints" (explicit .context 1 AttributeValueConstraints)]

/-- `AttributeTrustCondition ::=` -/
def AttributeTrustCondition : Ty :=
  SEQUENCE [
    mandatory "attributeMandated" BOOLEAN,
    mandatory "howCertAttribute" HowCertAttribute,
    optional "attrCertificateTrustTrees" (explicit .context 0 CertificateTrustTrees),
    optional "attrRevReq" (explicit .context 1 CertRevReq),
    optional "attributeConstraints" (explicit .context 2 AttributeConstraints)]

/-- `AlgAndLength ::=` -/
def AlgAndLength : Ty :=
  SEQUENCE [
    mandatory "algID" OBJECT_IDENTIFIER,
    optional "minKeyLength" INTEGER,
    optional "other" SignPolExtensions]

/-- `AlgorithmConstraints ::=` -/
def AlgorithmConstraints : Ty :=
  SEQUENCE_OF AlgAndLength

/-- `AlgorithmConstraintSet ::=` -/
def AlgorithmConstraintSet : Ty :=
  SEQUENCE [
    optional "signerAlgorithmConstraints" (explicit .context 0 AlgorithmConstraints),
    optional "eeCertAlgorithmConstraints" (explicit .context 1 AlgorithmConstraints),
    optional "caCertAlgorithmConstraints" (explicit .context 2 AlgorithmConstraints),
    optional "aaCertAlgorithmConstraints" (explicit .context 3 AlgorithmConstraints),
    optional "tsaCertAlgorithmConstraints" (explicit .context 4 AlgorithmConstraints)]

/-- `CommonRules ::=` -/
def CommonRules : Ty :=
  SEQUENCE [
    optional "signerAndVeriferRules" (explicit .context 0 SignerAndVerifierRules),
    optional "signingCertTrustCondition" (explicit .context 1 SigningCertTrustCondition),
    optional "timeStampTrustCondition" (explicit .context 2 TimestampTrustCondition),
    optional "attributeTrustCondition" (explicit .context 3 AttributeTrustCondition),
    optional "algorithmConstraintSet" (explicit .context 4 AlgorithmConstraintSet),
    optional "signPolExtensions" (explicit .context 5 SignPolExtensions)]

/-- `CommitmentTypeIdentifier ::=` -/
def CommitmentTypeIdentifier : Ty :=
  OBJECT_IDENTIFIER

/-- `CommitmentType ::=` -/
def CommitmentType : Ty :=
  SEQUENCE [
    mandatory "identifier" CommitmentTypeIdentifier,
    optional "fieldOfApplication" (explicit .context 0 FieldOfApplication),
    optional "semantics" (explicit .context 1 Std.Rfc3280.DirectoryString)]

/-- `SelectedCommitmentTypes ::=` -/
def SelectedCommitmentTypes : Ty :=
  SEQUENCE_OF (CHOICE [
    mandatory "empty" NULL,
    mandatory "recognizedCommitmentType" CommitmentType])

/-- `CommitmentRule ::=` -/
def CommitmentRule : Ty :=
  SEQUENCE [
    mandatory "selCommitmentTypes" SelectedCommitmentTypes,
    optional "signerAndVeriferRules" (explicit .context 0 SignerAndVerifierRules),
    optional "signingCertTrustCondition" (explicit .context 1 SigningCertTrustCondition),
    optional "timeStampTrustCondition" (explicit .context 2 TimestampTrustCondition),
    optional "attributeTrustCondition" (explicit .context 3 AttributeTrustCondition),
    optional "algorithmConstraintSet" (explicit .context 4 AlgorithmConstraintSet),
    optional "signPolExtensions" (explicit .context 5 SignPolExtensions)]

/-- `CommitmentRules ::=` -/
def CommitmentRules : Ty :=
  SEQUENCE_OF CommitmentRule

/-- `SignatureValidationPolicy ::=` -/
def SignatureValidationPolicy : Ty :=
  SEQUENCE [
    mandatory "signingPeriod" SigningPeriod,
    mandatory "commonRules" CommonRules,
    mandatory "commitmentRules" CommitmentRules,
    optional "signPolExtensions" SignPolExtensions]

/-- `SignPolicyInfo ::=` -/
def SignPolicyInfo : Ty :=
  SEQUENCE [
    mandatory "signPolicyIdentifier" SignPolicyId,
    mandatory "dateOfIssue" GeneralizedTime,
    mandatory "policyIssuerName" PolicyIssuerName,
    mandatory "fieldOfApplication" FieldOfApplication,
    mandatory "signatureValidationPolicy" SignatureValidationPolicy,
    optional "signPolExtensions" SignPolExtensions]

/-- `SignPolicyHash ::=` -/
def SignPolicyHash : Ty :=
  OCTET_STRING

/-- `SignaturePolicy ::=` -/
def SignaturePolicy : Ty :=
  SEQUENCE [
    mandatory "signPolicyHashAlg" Std.Rfc3280.AlgorithmIdentifier,
    mandatory "signPolicyInfo" SignPolicyInfo,
    optional "signPolicyHash" SignPolicyHash]

/-- Classes of rfc3125.py and the types of the standard they implement. -/
def entries : List Entry :=
  [⟨"rfc3125.AlgorithmIdentifier", Verif.Rfc3125.AlgorithmIdentifier, Std.Rfc3280.AlgorithmIdentifier, .same, false⟩,
   ⟨"rfc3125.Attribute", Verif.Rfc3125.Attribute, Std.Rfc3280.Attribute, .same, false⟩,
   ⟨"rfc3125.AttributeType", Verif.Rfc3125.AttributeType, Std.Rfc3280.AttributeType, .same, false⟩,
   ⟨"rfc3125.AttributeTypeAndValue", Verif.Rfc3125.AttributeTypeAndValue, Std.Rfc3280.AttributeTypeAndValue, .same, false⟩,
   ⟨"rfc3125.AttributeValue", Verif.Rfc3125.AttributeValue, Std.Rfc3280.AttributeValue, .same, false⟩,
   ⟨"rfc3125.Certificate", Verif.Rfc3125.Certificate, Std.Rfc3280.Certificate, .same, false⟩,
   ⟨"rfc3125.CertificateList", Verif.Rfc3125.CertificateList, Std.Rfc3280.CertificateList, .same, false⟩,
   ⟨"rfc3125.DirectoryString", Verif.Rfc3125.DirectoryString, Std.Rfc3280.DirectoryString, .same, false⟩,
   ⟨"rfc3125.GeneralName", Verif.Rfc3125.GeneralName, Std.Rfc3280.GeneralName, .same, false⟩,
   ⟨"rfc3125.GeneralNames", Verif.Rfc3125.GeneralNames, Std.Rfc3280.GeneralNames, .same, false⟩,
   ⟨"rfc3125.Name", Verif.Rfc3125.Name, Std.Rfc3280.Name, .same, false⟩,
   ⟨"rfc3125.PolicyInformation", Verif.Rfc3125.PolicyInformation, Std.Rfc3280.PolicyInformation, .relaxed, false⟩,
   ⟨"rfc3125.CertPolicyId", Verif.Rfc3125.CertPolicyId, Std.Rfc3280.CertPolicyId, .same, false⟩,
   ⟨"rfc3125.AcceptablePolicySet", Verif.Rfc3125.AcceptablePolicySet, AcceptablePolicySet, .same, false⟩,
   ⟨"rfc3125.SignPolExtn", Verif.Rfc3125.SignPolExtn, SignPolExtn, .same, false⟩,
   ⟨"rfc3125.SignPolExtensions", Verif.Rfc3125.SignPolExtensions, SignPolExtensions, .same, false⟩,
   ⟨"rfc3125.AlgAndLength", Verif.Rfc3125.AlgAndLength, AlgAndLength, .same, false⟩,
   ⟨"rfc3125.AlgorithmConstraints", Verif.Rfc3125.AlgorithmConstraints, AlgorithmConstraints, .same, false⟩,
   ⟨"rfc3125.AlgorithmConstraintSet", Verif.Rfc3125.AlgorithmConstraintSet, AlgorithmConstraintSet, .same, false⟩,
   ⟨"rfc3125.AttributeValueConstraints", Verif.Rfc3125.AttributeValueConstraints, AttributeValueConstraints, .same, false⟩,
   ⟨"rfc3125.AttributeTypeConstraints", Verif.Rfc3125.AttributeTypeConstraints, AttributeTypeConstraints, .same, false⟩,
   ⟨"rfc3125.AttributeConstraints", Verif.Rfc3125.AttributeConstraints, AttributeConstraints, .same, false⟩,
   ⟨"rfc3125.HowCertAttribute", Verif.Rfc3125.HowCertAttribute, HowCertAttribute, .same, false⟩,
   ⟨"rfc3125.SkipCerts", Verif.Rfc3125.SkipCerts, SkipCerts, .same, false⟩,
   ⟨"rfc3125.PolicyConstraints", Verif.Rfc3125.PolicyConstraints, PolicyConstraints, .same, false⟩,
   ⟨"rfc3125.BaseDistance", Verif.Rfc3125.BaseDistance, BaseDistance, .same, false⟩,
   ⟨"rfc3125.GeneralSubtree", Verif.Rfc3125.GeneralSubtree, GeneralSubtree, .same, false⟩,
   ⟨"rfc3125.GeneralSubtrees", Verif.Rfc3125.GeneralSubtrees, GeneralSubtrees, .same, false⟩,
   ⟨"rfc3125.NameConstraints", Verif.Rfc3125.NameConstraints, NameConstraints, .same, false⟩,
   ⟨"rfc3125.PathLenConstraint", Verif.Rfc3125.PathLenConstraint, PathLenConstraint, .same, false⟩,
   ⟨"rfc3125.CertificateTrustPoint", Verif.Rfc3125.CertificateTrustPoint, CertificateTrustPoint, .same, false⟩,
   ⟨"rfc3125.CertificateTrustTrees", Verif.Rfc3125.CertificateTrustTrees, CertificateTrustTrees, .same, false⟩,
   ⟨"rfc3125.EnuRevReq", Verif.Rfc3125.EnuRevReq, EnuRevReq, .same, false⟩,
   ⟨"rfc3125.RevReq", Verif.Rfc3125.RevReq, RevReq, .same, false⟩,
   ⟨"rfc3125.CertRevReq", Verif.Rfc3125.CertRevReq, CertRevReq, .same, false⟩,
   ⟨"rfc3125.AttributeTrustCondition", Verif.Rfc3125.AttributeTrustCondition, AttributeTrustCondition, .same, false⟩,
   ⟨"rfc3125.CMSAttrs", Verif.Rfc3125.CMSAttrs, CMSAttrs, .same, false⟩,
   ⟨"rfc3125.CertInfoReq", Verif.Rfc3125.CertInfoReq, CertInfoReq, .same, false⟩,
   ⟨"rfc3125.CertRefReq", Verif.Rfc3125.CertRefReq, CertRefReq, .same, false⟩,
   ⟨"rfc3125.DeltaTime", Verif.Rfc3125.DeltaTime, DeltaTime, .same, false⟩,
   ⟨"rfc3125.TimestampTrustCondition", Verif.Rfc3125.TimestampTrustCondition, TimestampTrustCondition, .same, false⟩,
   ⟨"rfc3125.SignerRules", Verif.Rfc3125.SignerRules, SignerRules, .same, false⟩,
   ⟨"rfc3125.MandatedUnsignedAttr", Verif.Rfc3125.MandatedUnsignedAttr, MandatedUnsignedAttr, .same, false⟩,
   ⟨"rfc3125.VerifierRules", Verif.Rfc3125.VerifierRules, VerifierRules, .same, false⟩,
   ⟨"rfc3125.SignerAndVerifierRules", Verif.Rfc3125.SignerAndVerifierRules, SignerAndVerifierRules, .same, false⟩,
   ⟨"rfc3125.SigningCertTrustCondition", Verif.Rfc3125.SigningCertTrustCondition, SigningCertTrustCondition, .same, false⟩,
   ⟨"rfc3125.CommitmentTypeIdentifier", Verif.Rfc3125.CommitmentTypeIdentifier, CommitmentTypeIdentifier, .same, false⟩,
   ⟨"rfc3125.FieldOfApplication", Verif.Rfc3125.FieldOfApplication, FieldOfApplication, .same, false⟩,
   ⟨"rfc3125.CommitmentType", Verif.Rfc3125.CommitmentType, CommitmentType, .same, false⟩,
   ⟨"rfc3125.SelectedCommitmentTypes", Verif.Rfc3125.SelectedCommitmentTypes, SelectedCommitmentTypes, .same, false⟩,
   ⟨"rfc3125.CommitmentRule", Verif.Rfc3125.CommitmentRule, CommitmentRule, .same, false⟩,
   ⟨"rfc3125.CommitmentRules", Verif.Rfc3125.CommitmentRules, CommitmentRules, .same, false⟩,
   ⟨"rfc3125.CommonRules", Verif.Rfc3125.CommonRules, CommonRules, .same, false⟩,
   ⟨"rfc3125.PolicyIssuerName", Verif.Rfc3125.PolicyIssuerName, PolicyIssuerName, .same, false⟩,
   ⟨"rfc3125.SignPolicyHash", Verif.Rfc3125.SignPolicyHash, SignPolicyHash, .same, false⟩,
   ⟨"rfc3125.SignPolicyId", Verif.Rfc3125.SignPolicyId, SignPolicyId, .same, false⟩,
   ⟨"rfc3125.SigningPeriod", Verif.Rfc3125.SigningPeriod, SigningPeriod, .same, false⟩,
   ⟨"rfc3125.SignatureValidationPolicy", Verif.Rfc3125.SignatureValidationPolicy, SignatureValidationPolicy, .same, false⟩,
   ⟨"rfc3125.SignPolicyInfo", Verif.Rfc3125.SignPolicyInfo, SignPolicyInfo, .same, false⟩,
   ⟨"rfc3125.SignaturePolicy", Verif.Rfc3125.SignaturePolicy, SignaturePolicy, .same, false⟩]

/-- Classes of rfc3125.py the transcription of the standard has no type for. -/
def beyond : List String :=
  []

/-- Constants of rfc3125.py and the values the standard gives them. -/
def constants : List Constant :=
  []

/-- Constants of rfc3125.py the transcription of the standard has no value for. -/
def others : List String :=
  []

def standard : Standard := ⟨Verif.Rfc3125.asModule, entries, beyond, constants, others⟩

end Rfc3125
end Std
end Verif
