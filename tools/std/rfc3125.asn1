-- RFC 3125, annex A.1.
ETS-ElectronicSignaturePolicies-88syntax DEFINITIONS EXPLICIT TAGS ::= BEGIN
IMPORTS AlgorithmIdentifier, Attribute, AttributeType, AttributeTypeAndValue, AttributeValue, Certificate, CertificateList,
  DirectoryString, GeneralName, GeneralNames, Name, PolicyInformation, CertPolicyId FROM rfc3280;
SignaturePolicy ::= SEQUENCE {
  signPolicyHashAlg AlgorithmIdentifier,
  signPolicyInfo SignPolicyInfo,
  signPolicyHash SignPolicyHash OPTIONAL }
SignPolicyHash ::= OCTET STRING
SignPolicyInfo ::= SEQUENCE {
  signPolicyIdentifier SignPolicyId,
  dateOfIssue GeneralizedTime,
  policyIssuerName PolicyIssuerName,
  fieldOfApplication FieldOfApplication,
  signatureValidationPolicy SignatureValidationPolicy,
  signPolExtensions SignPolExtensions OPTIONAL }
SignPolicyId ::= OBJECT IDENTIFIER
PolicyIssuerName ::= GeneralNames
FieldOfApplication ::= DirectoryString
SignatureValidationPolicy ::= SEQUENCE {
  signingPeriod SigningPeriod,
  commonRules CommonRules,
  commitmentRules CommitmentRules,
  signPolExtensions SignPolExtensions OPTIONAL }
SigningPeriod ::= SEQUENCE {
  notBefore GeneralizedTime,
  notAfter GeneralizedTime OPTIONAL }
CommonRules ::= SEQUENCE {
  signerAndVeriferRules [0] SignerAndVerifierRules OPTIONAL,
  signingCertTrustCondition [1] SigningCertTrustCondition OPTIONAL,
  timeStampTrustCondition [2] TimestampTrustCondition OPTIONAL,
  attributeTrustCondition [3] AttributeTrustCondition OPTIONAL,
  algorithmConstraintSet [4] AlgorithmConstraintSet OPTIONAL,
  signPolExtensions [5] SignPolExtensions OPTIONAL }
CommitmentRules ::= SEQUENCE OF CommitmentRule
CommitmentRule ::= SEQUENCE {
  selCommitmentTypes SelectedCommitmentTypes,
  signerAndVeriferRules [0] SignerAndVerifierRules OPTIONAL,
  signingCertTrustCondition [1] SigningCertTrustCondition OPTIONAL,
  timeStampTrustCondition [2] TimestampTrustCondition OPTIONAL,
  attributeTrustCondition [3] AttributeTrustCondition OPTIONAL,
  algorithmConstraintSet [4] AlgorithmConstraintSet OPTIONAL,
  signPolExtensions [5] SignPolExtensions OPTIONAL }
SelectedCommitmentTypes ::= SEQUENCE OF CHOICE {
  empty NULL,
  recognizedCommitmentType CommitmentType }
CommitmentTypeIdentifier ::= OBJECT IDENTIFIER
CommitmentType ::= SEQUENCE {
  identifier CommitmentTypeIdentifier,
  fieldOfApplication [0] FieldOfApplication OPTIONAL,
  semantics [1] DirectoryString OPTIONAL }
SignerAndVerifierRules ::= SEQUENCE {
  signerRules SignerRules,
  verifierRules VerifierRules }
SignerRules ::= SEQUENCE {
  externalSignedData BOOLEAN OPTIONAL,
  mandatedSignedAttr CMSAttrs,
  mandatedUnsignedAttr CMSAttrs,
  mandatedCertificateRef [0] CertRefReq DEFAULT signerOnly,
  mandatedCertificateInfo [1] CertInfoReq DEFAULT none,
  signPolExtensions [2] SignPolExtensions OPTIONAL }
CMSAttrs ::= SEQUENCE OF OBJECT IDENTIFIER
CertRefReq ::= ENUMERATED { signerOnly(1), fullPath(2) }
CertInfoReq ::= ENUMERATED { none(0), signerOnly(1), fullPath(2) }
VerifierRules ::= SEQUENCE {
  mandatedUnsignedAttr MandatedUnsignedAttr,
  signPolExtensions SignPolExtensions OPTIONAL }
MandatedUnsignedAttr ::= CMSAttrs
CertificateTrustTrees ::= SEQUENCE OF CertificateTrustPoint
CertificateTrustPoint ::= SEQUENCE {
  trustpoint Certificate,
  pathLenConstraint [0] PathLenConstraint OPTIONAL,
  acceptablePolicySet [1] AcceptablePolicySet OPTIONAL,
  nameConstraints [2] NameConstraints OPTIONAL,
  policyConstraints [3] PolicyConstraints OPTIONAL }
PathLenConstraint ::= INTEGER (0..MAX)
AcceptablePolicySet ::= SEQUENCE OF CertPolicyId
NameConstraints ::= SEQUENCE {
  permittedSubtrees [0] GeneralSubtrees OPTIONAL,
  excludedSubtrees [1] GeneralSubtrees OPTIONAL }
GeneralSubtrees ::= SEQUENCE SIZE (1..MAX) OF GeneralSubtree
GeneralSubtree ::= SEQUENCE {
  base GeneralName,
  minimum [0] BaseDistance DEFAULT 0,
  maximum [1] BaseDistance OPTIONAL }
BaseDistance ::= INTEGER (0..MAX)
PolicyConstraints ::= SEQUENCE {
  requireExplicitPolicy [0] SkipCerts OPTIONAL,
  inhibitPolicyMapping [1] SkipCerts OPTIONAL }
SkipCerts ::= INTEGER (0..MAX)
CertRevReq ::= SEQUENCE {
  endCertRevReq RevReq,
  caCerts [0] RevReq }
RevReq ::= SEQUENCE {
  enuRevReq EnuRevReq,
  exRevReq SignPolExtensions OPTIONAL }
EnuRevReq ::= ENUMERATED { clrCheck(0), ocspCheck(1), bothCheck(2), eitherCheck(3), noCheck(4), other(5) }
SigningCertTrustCondition ::= SEQUENCE {
  signerTrustTrees CertificateTrustTrees,
  signerRevReq CertRevReq }
TimestampTrustCondition ::= SEQUENCE {
  ttsCertificateTrustTrees [0] CertificateTrustTrees OPTIONAL,
  ttsRevReq [1] CertRevReq OPTIONAL,
  ttsNameConstraints [2] NameConstraints OPTIONAL,
  cautionPeriod [3] DeltaTime OPTIONAL,
  signatureTimestampDelay [4] DeltaTime OPTIONAL }
DeltaTime ::= SEQUENCE {
  deltaSeconds INTEGER,
  deltaMinutes INTEGER,
  deltaHours INTEGER,
  deltaDays INTEGER }
AttributeTrustCondition ::= SEQUENCE {
  attributeMandated BOOLEAN,
  howCertAttribute HowCertAttribute,
  attrCertificateTrustTrees [0] CertificateTrustTrees OPTIONAL,
  attrRevReq [1] CertRevReq OPTIONAL,
  attributeConstraints [2] AttributeConstraints OPTIONAL }
HowCertAttribute ::= ENUMERATED { claimedAttribute(0), certifiedAttribtes(1), either(2) }
AttributeConstraints ::= SEQUENCE {
  attributeTypeConstarints [0] AttributeTypeConstraints OPTIONAL,
  attributeValueConstarints [1] AttributeValueConstraints OPTIONAL }
AttributeTypeConstraints ::= SEQUENCE OF AttributeType
AttributeValueConstraints ::= SEQUENCE OF AttributeTypeAndValue
AlgorithmConstraintSet ::= SEQUENCE {
  signerAlgorithmConstraints [0] AlgorithmConstraints OPTIONAL,
  eeCertAlgorithmConstraints [1] AlgorithmConstraints OPTIONAL,
  caCertAlgorithmConstraints [2] AlgorithmConstraints OPTIONAL,
  aaCertAlgorithmConstraints [3] AlgorithmConstraints OPTIONAL,
  tsaCertAlgorithmConstraints [4] AlgorithmConstraints OPTIONAL }
AlgorithmConstraints ::= SEQUENCE OF AlgAndLength
AlgAndLength ::= SEQUENCE {
  algID OBJECT IDENTIFIER,
  minKeyLength INTEGER OPTIONAL,
  other SignPolExtensions OPTIONAL }
SignPolExtensions ::= SEQUENCE OF SignPolExtn
SignPolExtn ::= SEQUENCE {
  extnID OBJECT IDENTIFIER,
  extnValue OCTET STRING }
END
