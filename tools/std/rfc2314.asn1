-- RFC 2314 (PKCS #10 v1.5).
PKCS-10 DEFINITIONS EXPLICIT TAGS ::= BEGIN
IMPORTS AlgorithmIdentifier, Attribute, Name, SubjectPublicKeyInfo FROM rfc2459;
CertificationRequestInfo ::= SEQUENCE {
  version Version,
  subject Name,
  subjectPublicKeyInfo SubjectPublicKeyInfo,
  attributes [0] IMPLICIT Attributes }
Version ::= INTEGER
Attributes ::= SET OF Attribute
CertificationRequest ::= SEQUENCE {
  certificationRequestInfo CertificationRequestInfo,
  signatureAlgorithm SignatureAlgorithmIdentifier,
  signature Signature }
SignatureAlgorithmIdentifier ::= AlgorithmIdentifier
Signature ::= BIT STRING
END
