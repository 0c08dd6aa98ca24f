import Verif.Py.Obj
import Verif.Gen.Rfc5280

/-! Transcription of /repo/pyasn1_modules/rfc3125.py (generated by tools/gen.py). -/

namespace Verif
namespace Rfc3125

/-- rfc3125.py:26 -/
def MAX : Py.Bound :=
  .inf

/-- rfc3125.py:31 alias of `rfc5280.AlgorithmIdentifier` -/
def AlgorithmIdentifier : Py.Obj :=
  Rfc5280.AlgorithmIdentifier

/-- rfc3125.py:33 alias of `rfc5280.Attribute` -/
def Attribute : Py.Obj :=
  Rfc5280.Attribute

/-- rfc3125.py:35 alias of `rfc5280.AttributeType` -/
def AttributeType : Py.Obj :=
  Rfc5280.AttributeType

/-- rfc3125.py:37 alias of `rfc5280.AttributeTypeAndValue` -/
def AttributeTypeAndValue : Py.Obj :=
  Rfc5280.AttributeTypeAndValue

/-- rfc3125.py:39 alias of `rfc5280.AttributeValue` -/
def AttributeValue : Py.Obj :=
  Rfc5280.AttributeValue

/-- rfc3125.py:41 alias of `rfc5280.Certificate` -/
def Certificate : Py.Obj :=
  Rfc5280.Certificate

/-- rfc3125.py:43 alias of `rfc5280.CertificateList` -/
def CertificateList : Py.Obj :=
  Rfc5280.CertificateList

/-- rfc3125.py:45 alias of `rfc5280.DirectoryString` -/
def DirectoryString : Py.Obj :=
  Rfc5280.DirectoryString

/-- rfc3125.py:47 alias of `rfc5280.GeneralName` -/
def GeneralName : Py.Obj :=
  Rfc5280.GeneralName

/-- rfc3125.py:49 alias of `rfc5280.GeneralNames` -/
def GeneralNames : Py.Obj :=
  Rfc5280.GeneralNames

/-- rfc3125.py:51 alias of `rfc5280.Name` -/
def Name : Py.Obj :=
  Rfc5280.Name

/-- rfc3125.py:53 alias of `rfc5280.PolicyInformation` -/
def PolicyInformation : Py.Obj :=
  Rfc5280.PolicyInformation

/-- rfc3125.py:58-59 `class CertPolicyId(univ.ObjectIdentifier)` -/
def CertPolicyId : Py.Obj :=
  Py.univ.ObjectIdentifier

/-- rfc3125.py:62-63 `class AcceptablePolicySet(univ.SequenceOf)` -/
def AcceptablePolicySet : Py.Obj :=
  Py.univ.SequenceOf.setComponentTypeOf Rfc3125.CertPolicyId.call

/-- rfc3125.py:66-70 `class SignPolExtn(univ.Sequence)` -/
def SignPolExtn : Py.Obj :=
  Py.univ.Sequence.setComponentType (Py.NamedTypes [
    Py.NamedType "extnID" Py.univ.ObjectIdentifier.call,
    Py.NamedType "extnValue" Py.univ.OctetString.call])

/-- rfc3125.py:73-74 `class SignPolExtensions(univ.SequenceOf)` -/
def SignPolExtensions : Py.Obj :=
  Py.univ.SequenceOf.setComponentTypeOf Rfc3125.SignPolExtn.call

/-- rfc3125.py:77-82 `class AlgAndLength(univ.Sequence)` -/
def AlgAndLength : Py.Obj :=
  Py.univ.Sequence.setComponentType (Py.NamedTypes [
    Py.NamedType "algID" Py.univ.ObjectIdentifier.call,
    Py.OptionalNamedType "minKeyLength" Py.univ.Integer.call,
    Py.OptionalNamedType "other" Rfc3125.SignPolExtensions.call])

/-- rfc3125.py:85-86 `class AlgorithmConstraints(univ.SequenceOf)` -/
def AlgorithmConstraints : Py.Obj :=
  Py.univ.SequenceOf.setComponentTypeOf Rfc3125.AlgAndLength.call

/-- rfc3125.py:89-106 `class AlgorithmConstraintSet(univ.Sequence)` -/
def AlgorithmConstraintSet : Py.Obj :=
  Py.univ.Sequence.setComponentType (Py.NamedTypes [
    Py.OptionalNamedType "signerAlgorithmConstraints" (Rfc3125.AlgorithmConstraints.call.explicitTag (Py.Tag .context false 0)),
    Py.OptionalNamedType "eeCertAlgorithmConstraints" (Rfc3125.AlgorithmConstraints.call.explicitTag (Py.Tag .context false 1)),
    Py.OptionalNamedType "caCertAlgorithmConstraints" (Rfc3125.AlgorithmConstraints.call.explicitTag (Py.Tag .context false 2)),
    Py.OptionalNamedType "aaCertAlgorithmConstraints" (Rfc3125.AlgorithmConstraints.call.explicitTag (Py.Tag .context false 3)),
    Py.OptionalNamedType "tsaCertAlgorithmConstraints" (Rfc3125.AlgorithmConstraints.call.explicitTag (Py.Tag .context false 4))])

/-- rfc3125.py:109-110 `class AttributeValueConstraints(univ.SequenceOf)` -/
def AttributeValueConstraints : Py.Obj :=
  Py.univ.SequenceOf.setComponentTypeOf Rfc3125.AttributeTypeAndValue.call

/-- rfc3125.py:113-114 `class AttributeTypeConstraints(univ.SequenceOf)` -/
def AttributeTypeConstraints : Py.Obj :=
  Py.univ.SequenceOf.setComponentTypeOf Rfc3125.AttributeType.call

/-- rfc3125.py:117-125 `class AttributeConstraints(univ.Sequence)` -/
def AttributeConstraints : Py.Obj :=
  Py.univ.Sequence.setComponentType (Py.NamedTypes [
    Py.OptionalNamedType "attributeTypeConstarints" (Rfc3125.AttributeTypeConstraints.call.explicitTag (Py.Tag .context false 0)),
    Py.OptionalNamedType "attributeValueConstarints" (Rfc3125.AttributeValueConstraints.call.explicitTag (Py.Tag .context false 1))])

/-- rfc3125.py:128-133 `class HowCertAttribute(univ.Enumerated)` -/
def HowCertAttribute : Py.Obj :=
  Py.univ.Enumerated.setNamedValues (Py.NamedValues [("claimedAttribute", 0), ("certifiedAttribtes", 1), ("either", 2)])

/-- rfc3125.py:136-137 `class SkipCerts(univ.Integer)` -/
def SkipCerts : Py.Obj :=
  Py.univ.Integer.setSubtypeSpec (Py.ValueRangeConstraint (.fin 0) Rfc3125.MAX)

/-- rfc3125.py:140-148 `class PolicyConstraints(univ.Sequence)` -/
def PolicyConstraints : Py.Obj :=
  Py.univ.Sequence.setComponentType (Py.NamedTypes [
    Py.OptionalNamedType "requireExplicitPolicy" (Rfc3125.SkipCerts.call.explicitTag (Py.Tag .context false 0)),
    Py.OptionalNamedType "inhibitPolicyMapping" (Rfc3125.SkipCerts.call.explicitTag (Py.Tag .context false 1))])

/-- rfc3125.py:151-152 `class BaseDistance(univ.Integer)` -/
def BaseDistance : Py.Obj :=
  Py.univ.Integer.setSubtypeSpec (Py.ValueRangeConstraint (.fin 0) Rfc3125.MAX)

/-- rfc3125.py:155-165 `class GeneralSubtree(univ.Sequence)` -/
def GeneralSubtree : Py.Obj :=
  Py.univ.Sequence.setComponentType (Py.NamedTypes [
    Py.NamedType "base" Rfc3125.GeneralName.call,
    Py.DefaultedNamedType "minimum" ((Rfc3125.BaseDistance.call.explicitTag (Py.Tag .context false 0)).callInt 0),
    Py.OptionalNamedType "maximum" (Rfc3125.BaseDistance.call.explicitTag (Py.Tag .context false 1))])

/-- rfc3125.py:168-170 `class GeneralSubtrees(univ.SequenceOf)` -/
def GeneralSubtrees : Py.Obj :=
  (Py.univ.SequenceOf.setComponentTypeOf Rfc3125.GeneralSubtree.call).setSubtypeSpec (Py.ValueSizeConstraint (.fin 1) Rfc3125.MAX)

/-- rfc3125.py:173-181 `class NameConstraints(univ.Sequence)` -/
def NameConstraints : Py.Obj :=
  Py.univ.Sequence.setComponentType (Py.NamedTypes [
    Py.OptionalNamedType "permittedSubtrees" (Rfc3125.GeneralSubtrees.call.explicitTag (Py.Tag .context false 0)),
    Py.OptionalNamedType "excludedSubtrees" (Rfc3125.GeneralSubtrees.call.explicitTag (Py.Tag .context false 1))])

/-- rfc3125.py:184-185 `class PathLenConstraint(univ.Integer)` -/
def PathLenConstraint : Py.Obj :=
  Py.univ.Integer.setSubtypeSpec (Py.ValueRangeConstraint (.fin 0) Rfc3125.MAX)

/-- rfc3125.py:188-203 `class CertificateTrustPoint(univ.Sequence)` -/
def CertificateTrustPoint : Py.Obj :=
  Py.univ.Sequence.setComponentType (Py.NamedTypes [
    Py.NamedType "trustpoint" Rfc3125.Certificate.call,
    Py.OptionalNamedType "pathLenConstraint" (Rfc3125.PathLenConstraint.call.explicitTag (Py.Tag .context false 0)),
    Py.OptionalNamedType "acceptablePolicySet" (Rfc3125.AcceptablePolicySet.call.explicitTag (Py.Tag .context false 1)),
    Py.OptionalNamedType "nameConstraints" (Rfc3125.NameConstraints.call.explicitTag (Py.Tag .context true 2)),
    Py.OptionalNamedType "policyConstraints" (Rfc3125.PolicyConstraints.call.explicitTag (Py.Tag .context true 3))])

/-- rfc3125.py:206-207 `class CertificateTrustTrees(univ.SequenceOf)` -/
def CertificateTrustTrees : Py.Obj :=
  Py.univ.SequenceOf.setComponentTypeOf Rfc3125.CertificateTrustPoint.call

/-- rfc3125.py:210-218 `class EnuRevReq(univ.Enumerated)` -/
def EnuRevReq : Py.Obj :=
  Py.univ.Enumerated.setNamedValues (Py.NamedValues [("clrCheck", 0), ("ocspCheck", 1), ("bothCheck", 2), ("eitherCheck", 3), ("noCheck", 4), ("other", 5)])

/-- rfc3125.py:221-225 `class RevReq(univ.Sequence)` -/
def RevReq : Py.Obj :=
  Py.univ.Sequence.setComponentType (Py.NamedTypes [
    Py.NamedType "enuRevReq" Rfc3125.EnuRevReq.call,
    Py.OptionalNamedType "exRevReq" Rfc3125.SignPolExtensions.call])

/-- rfc3125.py:228-234 `class CertRevReq(univ.Sequence)` -/
def CertRevReq : Py.Obj :=
  Py.univ.Sequence.setComponentType (Py.NamedTypes [
    Py.NamedType "endCertRevReq" Rfc3125.RevReq.call,
    Py.NamedType "caCerts" (Rfc3125.RevReq.call.explicitTag (Py.Tag .context true 0))])

/-- rfc3125.py:237-250 `class AttributeTrustCondition(univ.Sequence)` -/
def AttributeTrustCondition : Py.Obj :=
  Py.univ.Sequence.setComponentType (Py.NamedTypes [
    Py.NamedType "attributeMandated" Py.univ.Boolean.call,
    Py.NamedType "howCertAttribute" Rfc3125.HowCertAttribute.call,
    Py.OptionalNamedType "attrCertificateTrustTrees" (Rfc3125.CertificateTrustTrees.call.explicitTag (Py.Tag .context false 0)),
    Py.OptionalNamedType "attrRevReq" (Rfc3125.CertRevReq.call.explicitTag (Py.Tag .context true 1)),
    Py.OptionalNamedType "attributeConstraints" (Rfc3125.AttributeConstraints.call.explicitTag (Py.Tag .context true 2))])

/-- rfc3125.py:253-254 `class CMSAttrs(univ.SequenceOf)` -/
def CMSAttrs : Py.Obj :=
  Py.univ.SequenceOf.setComponentTypeOf Py.univ.ObjectIdentifier.call

/-- rfc3125.py:257-262 `class CertInfoReq(univ.Enumerated)` -/
def CertInfoReq : Py.Obj :=
  Py.univ.Enumerated.setNamedValues (Py.NamedValues [("none", 0), ("signerOnly", 1), ("fullPath", 2)])

/-- rfc3125.py:265-269 `class CertRefReq(univ.Enumerated)` -/
def CertRefReq : Py.Obj :=
  Py.univ.Enumerated.setNamedValues (Py.NamedValues [("signerOnly", 1), ("fullPath", 2)])

/-- rfc3125.py:272-278 `class DeltaTime(univ.Sequence)` -/
def DeltaTime : Py.Obj :=
  Py.univ.Sequence.setComponentType (Py.NamedTypes [
    Py.NamedType "deltaSeconds" Py.univ.Integer.call,
    Py.NamedType "deltaMinutes" Py.univ.Integer.call,
    Py.NamedType "deltaHours" Py.univ.Integer.call,
    Py.NamedType "deltaDays" Py.univ.Integer.call])

/-- rfc3125.py:281-298 `class TimestampTrustCondition(univ.Sequence)` -/
def TimestampTrustCondition : Py.Obj :=
  Py.univ.Sequence.setComponentType (Py.NamedTypes [
    Py.OptionalNamedType "ttsCertificateTrustTrees" (Rfc3125.CertificateTrustTrees.call.explicitTag (Py.Tag .context false 0)),
    Py.OptionalNamedType "ttsRevReq" (Rfc3125.CertRevReq.call.explicitTag (Py.Tag .context true 1)),
    Py.OptionalNamedType "ttsNameConstraints" (Rfc3125.NameConstraints.call.explicitTag (Py.Tag .context true 2)),
    Py.OptionalNamedType "cautionPeriod" (Rfc3125.DeltaTime.call.explicitTag (Py.Tag .context true 3)),
    Py.OptionalNamedType "signatureTimestampDelay" (Rfc3125.DeltaTime.call.explicitTag (Py.Tag .context true 4))])

/-- rfc3125.py:301-317 `class SignerRules(univ.Sequence)` -/
def SignerRules : Py.Obj :=
  Py.univ.Sequence.setComponentType (Py.NamedTypes [
    Py.OptionalNamedType "externalSignedData" Py.univ.Boolean.call,
    Py.NamedType "mandatedSignedAttr" Rfc3125.CMSAttrs.call,
    Py.NamedType "mandatedUnsignedAttr" Rfc3125.CMSAttrs.call,
    Py.DefaultedNamedType "mandatedCertificateRef" ((Rfc3125.CertRefReq.call.explicitTag (Py.Tag .context false 0)).callStr "signerOnly"),
    Py.DefaultedNamedType "mandatedCertificateInfo" ((Rfc3125.CertInfoReq.call.explicitTag (Py.Tag .context false 1)).callStr "none"),
    Py.OptionalNamedType "signPolExtensions" (Rfc3125.SignPolExtensions.call.explicitTag (Py.Tag .context false 2))])

/-- rfc3125.py:320-321 `class MandatedUnsignedAttr(CMSAttrs)` -/
def MandatedUnsignedAttr : Py.Obj :=
  Rfc3125.CMSAttrs

/-- rfc3125.py:324-328 `class VerifierRules(univ.Sequence)` -/
def VerifierRules : Py.Obj :=
  Py.univ.Sequence.setComponentType (Py.NamedTypes [
    Py.NamedType "mandatedUnsignedAttr" Rfc3125.MandatedUnsignedAttr.call,
    Py.OptionalNamedType "signPolExtensions" Rfc3125.SignPolExtensions.call])

/-- rfc3125.py:331-335 `class SignerAndVerifierRules(univ.Sequence)` -/
def SignerAndVerifierRules : Py.Obj :=
  Py.univ.Sequence.setComponentType (Py.NamedTypes [
    Py.NamedType "signerRules" Rfc3125.SignerRules.call,
    Py.NamedType "verifierRules" Rfc3125.VerifierRules.call])

/-- rfc3125.py:338-342 `class SigningCertTrustCondition(univ.Sequence)` -/
def SigningCertTrustCondition : Py.Obj :=
  Py.univ.Sequence.setComponentType (Py.NamedTypes [
    Py.NamedType "signerTrustTrees" Rfc3125.CertificateTrustTrees.call,
    Py.NamedType "signerRevReq" Rfc3125.CertRevReq.call])

/-- rfc3125.py:345-346 `class CommitmentTypeIdentifier(univ.ObjectIdentifier)` -/
def CommitmentTypeIdentifier : Py.Obj :=
  Py.univ.ObjectIdentifier

/-- rfc3125.py:349-350 `class FieldOfApplication(DirectoryString)` -/
def FieldOfApplication : Py.Obj :=
  Rfc3125.DirectoryString

/-- rfc3125.py:353-362 `class CommitmentType(univ.Sequence)` -/
def CommitmentType : Py.Obj :=
  Py.univ.Sequence.setComponentType (Py.NamedTypes [
    Py.NamedType "identifier" Rfc3125.CommitmentTypeIdentifier.call,
    Py.OptionalNamedType "fieldOfApplication" (Rfc3125.FieldOfApplication.call.explicitTag (Py.Tag .context false 0)),
    Py.OptionalNamedType "semantics" (Rfc3125.DirectoryString.call.explicitTag (Py.Tag .context false 1))])

/-- rfc3125.py:365-369 `class SelectedCommitmentTypes(univ.SequenceOf)` -/
def SelectedCommitmentTypes : Py.Obj :=
  Py.univ.SequenceOf.setComponentTypeOf (Py.univ.Choice.call.setComponentType (Py.NamedTypes [
    Py.NamedType "empty" Py.univ.Null.call,
    Py.NamedType "recognizedCommitmentType" Rfc3125.CommitmentType.call]))

/-- rfc3125.py:372-393 `class CommitmentRule(univ.Sequence)` -/
def CommitmentRule : Py.Obj :=
  Py.univ.Sequence.setComponentType (Py.NamedTypes [
    Py.NamedType "selCommitmentTypes" Rfc3125.SelectedCommitmentTypes.call,
    Py.OptionalNamedType "signerAndVeriferRules" (Rfc3125.SignerAndVerifierRules.call.explicitTag (Py.Tag .context true 0)),
    Py.OptionalNamedType "signingCertTrustCondition" (Rfc3125.SigningCertTrustCondition.call.explicitTag (Py.Tag .context true 1)),
    Py.OptionalNamedType "timeStampTrustCondition" (Rfc3125.TimestampTrustCondition.call.explicitTag (Py.Tag .context true 2)),
    Py.OptionalNamedType "attributeTrustCondition" (Rfc3125.AttributeTrustCondition.call.explicitTag (Py.Tag .context true 3)),
    Py.OptionalNamedType "algorithmConstraintSet" (Rfc3125.AlgorithmConstraintSet.call.explicitTag (Py.Tag .context true 4)),
    Py.OptionalNamedType "signPolExtensions" (Rfc3125.SignPolExtensions.call.explicitTag (Py.Tag .context false 5))])

/-- rfc3125.py:396-397 `class CommitmentRules(univ.SequenceOf)` -/
def CommitmentRules : Py.Obj :=
  Py.univ.SequenceOf.setComponentTypeOf Rfc3125.CommitmentRule.call

/-- rfc3125.py:400-420 `class CommonRules(univ.Sequence)` -/
def CommonRules : Py.Obj :=
  Py.univ.Sequence.setComponentType (Py.NamedTypes [
    Py.OptionalNamedType "signerAndVeriferRules" (Rfc3125.SignerAndVerifierRules.call.explicitTag (Py.Tag .context true 0)),
    Py.OptionalNamedType "signingCertTrustCondition" (Rfc3125.SigningCertTrustCondition.call.explicitTag (Py.Tag .context true 1)),
    Py.OptionalNamedType "timeStampTrustCondition" (Rfc3125.TimestampTrustCondition.call.explicitTag (Py.Tag .context true 2)),
    Py.OptionalNamedType "attributeTrustCondition" (Rfc3125.AttributeTrustCondition.call.explicitTag (Py.Tag .context true 3)),
    Py.OptionalNamedType "algorithmConstraintSet" (Rfc3125.AlgorithmConstraintSet.call.explicitTag (Py.Tag .context true 4)),
    Py.OptionalNamedType "signPolExtensions" (Rfc3125.SignPolExtensions.call.explicitTag (Py.Tag .context false 5))])

/-- rfc3125.py:423-424 `class PolicyIssuerName(GeneralNames)` -/
def PolicyIssuerName : Py.Obj :=
  Rfc3125.GeneralNames

/-- rfc3125.py:427-428 `class SignPolicyHash(univ.OctetString)` -/
def SignPolicyHash : Py.Obj :=
  Py.univ.OctetString

/-- rfc3125.py:431-432 `class SignPolicyId(univ.ObjectIdentifier)` -/
def SignPolicyId : Py.Obj :=
  Py.univ.ObjectIdentifier

/-- rfc3125.py:435-439 `class SigningPeriod(univ.Sequence)` -/
def SigningPeriod : Py.Obj :=
  Py.univ.Sequence.setComponentType (Py.NamedTypes [
    Py.NamedType "notBefore" Py.useful.GeneralizedTime.call,
    Py.OptionalNamedType "notAfter" Py.useful.GeneralizedTime.call])

/-- rfc3125.py:442-448 `class SignatureValidationPolicy(univ.Sequence)` -/
def SignatureValidationPolicy : Py.Obj :=
  Py.univ.Sequence.setComponentType (Py.NamedTypes [
    Py.NamedType "signingPeriod" Rfc3125.SigningPeriod.call,
    Py.NamedType "commonRules" Rfc3125.CommonRules.call,
    Py.NamedType "commitmentRules" Rfc3125.CommitmentRules.call,
    Py.OptionalNamedType "signPolExtensions" Rfc3125.SignPolExtensions.call])

/-- rfc3125.py:451-459 `class SignPolicyInfo(univ.Sequence)` -/
def SignPolicyInfo : Py.Obj :=
  Py.univ.Sequence.setComponentType (Py.NamedTypes [
    Py.NamedType "signPolicyIdentifier" Rfc3125.SignPolicyId.call,
    Py.NamedType "dateOfIssue" Py.useful.GeneralizedTime.call,
    Py.NamedType "policyIssuerName" Rfc3125.PolicyIssuerName.call,
    Py.NamedType "fieldOfApplication" Rfc3125.FieldOfApplication.call,
    Py.NamedType "signatureValidationPolicy" Rfc3125.SignatureValidationPolicy.call,
    Py.OptionalNamedType "signPolExtensions" Rfc3125.SignPolExtensions.call])

/-- rfc3125.py:462-467 `class SignaturePolicy(univ.Sequence)` -/
def SignaturePolicy : Py.Obj :=
  Py.univ.Sequence.setComponentType (Py.NamedTypes [
    Py.NamedType "signPolicyHashAlg" Rfc3125.AlgorithmIdentifier.call,
    Py.NamedType "signPolicyInfo" Rfc3125.SignPolicyInfo.call,
    Py.OptionalNamedType "signPolicyHash" Rfc3125.SignPolicyHash.call])

/-- Modules of this package imported by rfc3125.py, in textual order. -/
def imports : List Py.Ident :=
  [(Py.mod 15 "rfc5280")]

/-- Dictionary operations executed when rfc3125.py is imported, in program order. -/
def effects : List Py.Effect :=
  []

/-- ASN.1 types rfc3125.py binds at module level (final version of each name), plus nested classes. -/
def classes : List (String × Py.Obj) :=
  [("rfc3125.AlgorithmIdentifier", Rfc3125.AlgorithmIdentifier),
   ("rfc3125.Attribute", Rfc3125.Attribute),
   ("rfc3125.AttributeType", Rfc3125.AttributeType),
   ("rfc3125.AttributeTypeAndValue", Rfc3125.AttributeTypeAndValue),
   ("rfc3125.AttributeValue", Rfc3125.AttributeValue),
   ("rfc3125.Certificate", Rfc3125.Certificate),
   ("rfc3125.CertificateList", Rfc3125.CertificateList),
   ("rfc3125.DirectoryString", Rfc3125.DirectoryString),
   ("rfc3125.GeneralName", Rfc3125.GeneralName),
   ("rfc3125.GeneralNames", Rfc3125.GeneralNames),
   ("rfc3125.Name", Rfc3125.Name),
   ("rfc3125.PolicyInformation", Rfc3125.PolicyInformation),
   ("rfc3125.CertPolicyId", Rfc3125.CertPolicyId),
   ("rfc3125.AcceptablePolicySet", Rfc3125.AcceptablePolicySet),
   ("rfc3125.SignPolExtn", Rfc3125.SignPolExtn),
   ("rfc3125.SignPolExtensions", Rfc3125.SignPolExtensions),
   ("rfc3125.AlgAndLength", Rfc3125.AlgAndLength),
   ("rfc3125.AlgorithmConstraints", Rfc3125.AlgorithmConstraints),
   ("rfc3125.AlgorithmConstraintSet", Rfc3125.AlgorithmConstraintSet),
   ("rfc3125.AttributeValueConstraints", Rfc3125.AttributeValueConstraints),
   ("rfc3125.AttributeTypeConstraints", Rfc3125.AttributeTypeConstraints),
   ("rfc3125.AttributeConstraints", Rfc3125.AttributeConstraints),
   ("rfc3125.HowCertAttribute", Rfc3125.HowCertAttribute),
   ("rfc3125.SkipCerts", Rfc3125.SkipCerts),
   ("rfc3125.PolicyConstraints", Rfc3125.PolicyConstraints),
   ("rfc3125.BaseDistance", Rfc3125.BaseDistance),
   ("rfc3125.GeneralSubtree", Rfc3125.GeneralSubtree),
   ("rfc3125.GeneralSubtrees", Rfc3125.GeneralSubtrees),
   ("rfc3125.NameConstraints", Rfc3125.NameConstraints),
   ("rfc3125.PathLenConstraint", Rfc3125.PathLenConstraint),
   ("rfc3125.CertificateTrustPoint", Rfc3125.CertificateTrustPoint),
   ("rfc3125.CertificateTrustTrees", Rfc3125.CertificateTrustTrees),
   ("rfc3125.EnuRevReq", Rfc3125.EnuRevReq),
   ("rfc3125.RevReq", Rfc3125.RevReq),
   ("rfc3125.CertRevReq", Rfc3125.CertRevReq),
   ("rfc3125.AttributeTrustCondition", Rfc3125.AttributeTrustCondition),
   ("rfc3125.CMSAttrs", Rfc3125.CMSAttrs),
   ("rfc3125.CertInfoReq", Rfc3125.CertInfoReq),
   ("rfc3125.CertRefReq", Rfc3125.CertRefReq),
   ("rfc3125.DeltaTime", Rfc3125.DeltaTime),
   ("rfc3125.TimestampTrustCondition", Rfc3125.TimestampTrustCondition),
   ("rfc3125.SignerRules", Rfc3125.SignerRules),
   ("rfc3125.MandatedUnsignedAttr", Rfc3125.MandatedUnsignedAttr),
   ("rfc3125.VerifierRules", Rfc3125.VerifierRules),
   ("rfc3125.SignerAndVerifierRules", Rfc3125.SignerAndVerifierRules),
   ("rfc3125.SigningCertTrustCondition", Rfc3125.SigningCertTrustCondition),
   ("rfc3125.CommitmentTypeIdentifier", Rfc3125.CommitmentTypeIdentifier),
   ("rfc3125.FieldOfApplication", Rfc3125.FieldOfApplication),
   ("rfc3125.CommitmentType", Rfc3125.CommitmentType),
   ("rfc3125.SelectedCommitmentTypes", Rfc3125.SelectedCommitmentTypes),
   ("rfc3125.CommitmentRule", Rfc3125.CommitmentRule),
   ("rfc3125.CommitmentRules", Rfc3125.CommitmentRules),
   ("rfc3125.CommonRules", Rfc3125.CommonRules),
   ("rfc3125.PolicyIssuerName", Rfc3125.PolicyIssuerName),
   ("rfc3125.SignPolicyHash", Rfc3125.SignPolicyHash),
   ("rfc3125.SignPolicyId", Rfc3125.SignPolicyId),
   ("rfc3125.SigningPeriod", Rfc3125.SigningPeriod),
   ("rfc3125.SignatureValidationPolicy", Rfc3125.SignatureValidationPolicy),
   ("rfc3125.SignPolicyInfo", Rfc3125.SignPolicyInfo),
   ("rfc3125.SignaturePolicy", Rfc3125.SignaturePolicy)]

/-- pyasn1 instances rfc3125.py binds at module level. -/
def objects : List (String × Py.Obj) :=
  []

/-- pyasn1 instances rfc3125.py fills in by item assignment. -/
def protos : List (String × Py.Proto) :=
  []

/-- Every place of rfc3125.py that instantiates a class of the package: where, the class as it is
at that point, and the class as it is when the import has finished. -/
def snapshots : List Py.Snapshot :=
  [⟨"rfc3125.py:63", Rfc3125.CertPolicyId, Rfc3125.CertPolicyId⟩,
   ⟨"rfc3125.py:74", Rfc3125.SignPolExtn, Rfc3125.SignPolExtn⟩,
   ⟨"rfc3125.py:81", Rfc3125.SignPolExtensions, Rfc3125.SignPolExtensions⟩,
   ⟨"rfc3125.py:86", Rfc3125.AlgAndLength, Rfc3125.AlgAndLength⟩,
   ⟨"rfc3125.py:92", Rfc3125.AlgorithmConstraints, Rfc3125.AlgorithmConstraints⟩,
   ⟨"rfc3125.py:95", Rfc3125.AlgorithmConstraints, Rfc3125.AlgorithmConstraints⟩,
   ⟨"rfc3125.py:98", Rfc3125.AlgorithmConstraints, Rfc3125.AlgorithmConstraints⟩,
   ⟨"rfc3125.py:101", Rfc3125.AlgorithmConstraints, Rfc3125.AlgorithmConstraints⟩,
   ⟨"rfc3125.py:104", Rfc3125.AlgorithmConstraints, Rfc3125.AlgorithmConstraints⟩,
   ⟨"rfc3125.py:110", Rfc3125.AttributeTypeAndValue, Rfc3125.AttributeTypeAndValue⟩,
   ⟨"rfc3125.py:114", Rfc3125.AttributeType, Rfc3125.AttributeType⟩,
   ⟨"rfc3125.py:120", Rfc3125.AttributeTypeConstraints, Rfc3125.AttributeTypeConstraints⟩,
   ⟨"rfc3125.py:123", Rfc3125.AttributeValueConstraints, Rfc3125.AttributeValueConstraints⟩,
   ⟨"rfc3125.py:143", Rfc3125.SkipCerts, Rfc3125.SkipCerts⟩,
   ⟨"rfc3125.py:146", Rfc3125.SkipCerts, Rfc3125.SkipCerts⟩,
   ⟨"rfc3125.py:157", Rfc3125.GeneralName, Rfc3125.GeneralName⟩,
   ⟨"rfc3125.py:159", Rfc3125.BaseDistance, Rfc3125.BaseDistance⟩,
   ⟨"rfc3125.py:163", Rfc3125.BaseDistance, Rfc3125.BaseDistance⟩,
   ⟨"rfc3125.py:169", Rfc3125.GeneralSubtree, Rfc3125.GeneralSubtree⟩,
   ⟨"rfc3125.py:176", Rfc3125.GeneralSubtrees, Rfc3125.GeneralSubtrees⟩,
   ⟨"rfc3125.py:179", Rfc3125.GeneralSubtrees, Rfc3125.GeneralSubtrees⟩,
   ⟨"rfc3125.py:190", Rfc3125.Certificate, Rfc3125.Certificate⟩,
   ⟨"rfc3125.py:192", Rfc3125.PathLenConstraint, Rfc3125.PathLenConstraint⟩,
   ⟨"rfc3125.py:195", Rfc3125.AcceptablePolicySet, Rfc3125.AcceptablePolicySet⟩,
   ⟨"rfc3125.py:198", Rfc3125.NameConstraints, Rfc3125.NameConstraints⟩,
   ⟨"rfc3125.py:201", Rfc3125.PolicyConstraints, Rfc3125.PolicyConstraints⟩,
   ⟨"rfc3125.py:207", Rfc3125.CertificateTrustPoint, Rfc3125.CertificateTrustPoint⟩,
   ⟨"rfc3125.py:223", Rfc3125.EnuRevReq, Rfc3125.EnuRevReq⟩,
   ⟨"rfc3125.py:224", Rfc3125.SignPolExtensions, Rfc3125.SignPolExtensions⟩,
   ⟨"rfc3125.py:230", Rfc3125.RevReq, Rfc3125.RevReq⟩,
   ⟨"rfc3125.py:232", Rfc3125.RevReq, Rfc3125.RevReq⟩,
   ⟨"rfc3125.py:240", Rfc3125.HowCertAttribute, Rfc3125.HowCertAttribute⟩,
   ⟨"rfc3125.py:242", Rfc3125.CertificateTrustTrees, Rfc3125.CertificateTrustTrees⟩,
   ⟨"rfc3125.py:245", Rfc3125.CertRevReq, Rfc3125.CertRevReq⟩,
   ⟨"rfc3125.py:248", Rfc3125.AttributeConstraints, Rfc3125.AttributeConstraints⟩,
   ⟨"rfc3125.py:284", Rfc3125.CertificateTrustTrees, Rfc3125.CertificateTrustTrees⟩,
   ⟨"rfc3125.py:287", Rfc3125.CertRevReq, Rfc3125.CertRevReq⟩,
   ⟨"rfc3125.py:290", Rfc3125.NameConstraints, Rfc3125.NameConstraints⟩,
   ⟨"rfc3125.py:293", Rfc3125.DeltaTime, Rfc3125.DeltaTime⟩,
   ⟨"rfc3125.py:296", Rfc3125.DeltaTime, Rfc3125.DeltaTime⟩,
   ⟨"rfc3125.py:304", Rfc3125.CMSAttrs, Rfc3125.CMSAttrs⟩,
   ⟨"rfc3125.py:305", Rfc3125.CMSAttrs, Rfc3125.CMSAttrs⟩,
   ⟨"rfc3125.py:307", Rfc3125.CertRefReq, Rfc3125.CertRefReq⟩,
   ⟨"rfc3125.py:311", Rfc3125.CertInfoReq, Rfc3125.CertInfoReq⟩,
   ⟨"rfc3125.py:315", Rfc3125.SignPolExtensions, Rfc3125.SignPolExtensions⟩,
   ⟨"rfc3125.py:326", Rfc3125.MandatedUnsignedAttr, Rfc3125.MandatedUnsignedAttr⟩,
   ⟨"rfc3125.py:327", Rfc3125.SignPolExtensions, Rfc3125.SignPolExtensions⟩,
   ⟨"rfc3125.py:333", Rfc3125.SignerRules, Rfc3125.SignerRules⟩,
   ⟨"rfc3125.py:334", Rfc3125.VerifierRules, Rfc3125.VerifierRules⟩,
   ⟨"rfc3125.py:340", Rfc3125.CertificateTrustTrees, Rfc3125.CertificateTrustTrees⟩,
   ⟨"rfc3125.py:341", Rfc3125.CertRevReq, Rfc3125.CertRevReq⟩,
   ⟨"rfc3125.py:355", Rfc3125.CommitmentTypeIdentifier, Rfc3125.CommitmentTypeIdentifier⟩,
   ⟨"rfc3125.py:357", Rfc3125.FieldOfApplication, Rfc3125.FieldOfApplication⟩,
   ⟨"rfc3125.py:360", Rfc3125.DirectoryString, Rfc3125.DirectoryString⟩,
   ⟨"rfc3125.py:368", Rfc3125.CommitmentType, Rfc3125.CommitmentType⟩,
   ⟨"rfc3125.py:374", Rfc3125.SelectedCommitmentTypes, Rfc3125.SelectedCommitmentTypes⟩,
   ⟨"rfc3125.py:376", Rfc3125.SignerAndVerifierRules, Rfc3125.SignerAndVerifierRules⟩,
   ⟨"rfc3125.py:379", Rfc3125.SigningCertTrustCondition, Rfc3125.SigningCertTrustCondition⟩,
   ⟨"rfc3125.py:382", Rfc3125.TimestampTrustCondition, Rfc3125.TimestampTrustCondition⟩,
   ⟨"rfc3125.py:385", Rfc3125.AttributeTrustCondition, Rfc3125.AttributeTrustCondition⟩,
   ⟨"rfc3125.py:388", Rfc3125.AlgorithmConstraintSet, Rfc3125.AlgorithmConstraintSet⟩,
   ⟨"rfc3125.py:391", Rfc3125.SignPolExtensions, Rfc3125.SignPolExtensions⟩,
   ⟨"rfc3125.py:397", Rfc3125.CommitmentRule, Rfc3125.CommitmentRule⟩,
   ⟨"rfc3125.py:403", Rfc3125.SignerAndVerifierRules, Rfc3125.SignerAndVerifierRules⟩,
   ⟨"rfc3125.py:406", Rfc3125.SigningCertTrustCondition, Rfc3125.SigningCertTrustCondition⟩,
   ⟨"rfc3125.py:409", Rfc3125.TimestampTrustCondition, Rfc3125.TimestampTrustCondition⟩,
   ⟨"rfc3125.py:412", Rfc3125.AttributeTrustCondition, Rfc3125.AttributeTrustCondition⟩,
   ⟨"rfc3125.py:415", Rfc3125.AlgorithmConstraintSet, Rfc3125.AlgorithmConstraintSet⟩,
   ⟨"rfc3125.py:418", Rfc3125.SignPolExtensions, Rfc3125.SignPolExtensions⟩,
   ⟨"rfc3125.py:444", Rfc3125.SigningPeriod, Rfc3125.SigningPeriod⟩,
   ⟨"rfc3125.py:445", Rfc3125.CommonRules, Rfc3125.CommonRules⟩,
   ⟨"rfc3125.py:446", Rfc3125.CommitmentRules, Rfc3125.CommitmentRules⟩,
   ⟨"rfc3125.py:447", Rfc3125.SignPolExtensions, Rfc3125.SignPolExtensions⟩,
   ⟨"rfc3125.py:453", Rfc3125.SignPolicyId, Rfc3125.SignPolicyId⟩,
   ⟨"rfc3125.py:455", Rfc3125.PolicyIssuerName, Rfc3125.PolicyIssuerName⟩,
   ⟨"rfc3125.py:456", Rfc3125.FieldOfApplication, Rfc3125.FieldOfApplication⟩,
   ⟨"rfc3125.py:457", Rfc3125.SignatureValidationPolicy, Rfc3125.SignatureValidationPolicy⟩,
   ⟨"rfc3125.py:458", Rfc3125.SignPolExtensions, Rfc3125.SignPolExtensions⟩,
   ⟨"rfc3125.py:464", Rfc3125.AlgorithmIdentifier, Rfc3125.AlgorithmIdentifier⟩,
   ⟨"rfc3125.py:465", Rfc3125.SignPolicyInfo, Rfc3125.SignPolicyInfo⟩,
   ⟨"rfc3125.py:466", Rfc3125.SignPolicyHash, Rfc3125.SignPolicyHash⟩]

/-- Functions rfc3125.py defines. -/
def builders : List (String × (List Py.OidArg → Py.Obj)) :=
  []

def asModule : Py.Module :=
  { id := (Py.mod 29 "rfc3125"), imports := imports, effects := effects, classes := classes, objects := objects, protos := protos, snapshots := snapshots, builders := builders }

end Rfc3125
end Verif
