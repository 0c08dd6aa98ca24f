-- RFC 2986 (PKCS #10 v1.7), with the parameterised types written out.
PKCS-10 DEFINITIONS IMPLICIT TAGS ::= BEGIN
IMPORTS AlgorithmIdentifier, Attribute, AttributeType, AttributeValue, AttributeTypeAndValue, RelativeDistinguishedName,
  RDNSequence, Name, SubjectPublicKeyInfo FROM rfc5280;
CertificationRequestInfo ::= SEQUENCE {
  version INTEGER { v1(0) },
  subject Name,
  subjectPKInfo SubjectPublicKeyInfo,
  attributes [0] Attributes }
Attributes ::= SET OF Attribute
CertificationRequest ::= SEQUENCE {
  certificationRequestInfo CertificationRequestInfo,
  signatureAlgorithm AlgorithmIdentifier,
  signature BIT STRING }
END
