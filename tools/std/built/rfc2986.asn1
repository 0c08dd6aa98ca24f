PKCS-10 DEFINITIONS IMPLICIT TAGS ::= BEGIN
CertificationRequestInfo ::= SEQUENCE {
  version INTEGER,
  subject Name,
  subjectPKInfo SubjectPublicKeyInfo,
  attributes [0] Attributes }
END
