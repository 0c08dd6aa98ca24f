-- RFC 5914, appendix A.1.
TrustAnchorInfoModule-88 DEFINITIONS IMPLICIT TAGS ::= BEGIN
IMPORTS Certificate, Name, Extensions, SubjectPublicKeyInfo, TBSCertificate, CertificatePolicies, KeyIdentifier, NameConstraints FROM rfc5280;
TrustAnchorInfo ::= SEQUENCE {
  version TrustAnchorInfoVersion DEFAULT v1,
  pubKey SubjectPublicKeyInfo,
  keyId KeyIdentifier,
  taTitle TrustAnchorTitle OPTIONAL,
  certPath CertPathControls OPTIONAL,
  exts [1] EXPLICIT Extensions OPTIONAL,
  taTitleLangTag [2] UTF8String OPTIONAL }
TrustAnchorInfoVersion ::= INTEGER { v1(1) }
TrustAnchorTitle ::= UTF8String (SIZE (1..64))
CertPathControls ::= SEQUENCE {
  taName Name,
  certificate [0] Certificate OPTIONAL,
  policySet [1] CertificatePolicies OPTIONAL,
  policyFlags [2] CertPolicyFlags OPTIONAL,
  nameConstr [3] NameConstraints OPTIONAL,
  pathLenConstraint [4] INTEGER (0..MAX) OPTIONAL }
CertPolicyFlags ::= BIT STRING { inhibitPolicyMapping(0), requireExplicitPolicy(1), inhibitAnyPolicy(2) }
TrustAnchorList ::= SEQUENCE SIZE (1..MAX) OF TrustAnchorChoice
TrustAnchorChoice ::= CHOICE {
  certificate Certificate,
  tbsCert [1] EXPLICIT TBSCertificate,
  taInfo [2] EXPLICIT TrustAnchorInfo }
id-ct-trustAnchorList OBJECT IDENTIFIER ::= { iso(1) member-body(2) us(840) rsadsi(113549) pkcs(1) pkcs9(9) smime(16) id-ct(1) 34 }
END
