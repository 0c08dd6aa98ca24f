-- Sets that may be left out; `values` of an Attribute (RFC 2459 has it, too, but not the package's class).
PKCS7 DEFINITIONS EXPLICIT TAGS ::= BEGIN
IMPORTS AttributeType, AttributeValue FROM rfc2459;
AttributeValueAssertion ::= SEQUENCE {
  attributeType AttributeType,
  attributeValue ANY }
SignatureAlgorithmIdentifier ::= AlgorithmIdentifier
Attribute ::= SEQUENCE {
  type AttributeType,
  values SET OF AttributeValue }
SignedData ::= SEQUENCE {
  version Version,
  digestAlgorithms DigestAlgorithmIdentifiers OPTIONAL,
  contentInfo ContentInfo,
  certificates [0] IMPLICIT ExtendedCertificatesAndCertificates OPTIONAL,
  crls [1] IMPLICIT CertificateRevocationLists OPTIONAL,
  signerInfos SignerInfos OPTIONAL }
END
