-- RFC 6211.
CMSAlgorithmProtectionAttribute DEFINITIONS IMPLICIT TAGS ::= BEGIN
IMPORTS DigestAlgorithmIdentifier, MessageAuthenticationCodeAlgorithm, SignatureAlgorithmIdentifier FROM rfc5652;
id-aa-cmsAlgorithmProtect OBJECT IDENTIFIER ::= { iso(1) member-body(2) us(840) rsadsi(113549) pkcs(1) pkcs9(9) 52 }
CMSAlgorithmProtection ::= SEQUENCE {
  digestAlgorithm DigestAlgorithmIdentifier,
  signatureAlgorithm [1] SignatureAlgorithmIdentifier OPTIONAL,
  macAlgorithm [2] MessageAuthenticationCodeAlgorithm OPTIONAL }
  (WITH COMPONENTS { signatureAlgorithm PRESENT, macAlgorithm ABSENT } |
   WITH COMPONENTS { signatureAlgorithm ABSENT, macAlgorithm PRESENT })
END
