-- RFC 6010.
CMSContentConstraintsCertExtn-88 DEFINITIONS IMPLICIT TAGS ::= BEGIN
IMPORTS AttributeType, AttributeValue FROM rfc5280;
id-ct-anyContentType OBJECT IDENTIFIER ::= { iso(1) member-body(2) us(840) rsadsi(113549) pkcs(1) pkcs9(9) smime(16) ct(1) 0 }
id-pe-cmsContentConstraints OBJECT IDENTIFIER ::= { iso(1) identified-organization(3) dod(6) internet(1) security(5) mechanisms(5) pkix(7) pe(1) 18 }
CMSContentConstraints ::= SEQUENCE SIZE (1..MAX) OF ContentTypeConstraint
ContentTypeGeneration ::= ENUMERATED { canSource(0), cannotSource(1) }
ContentTypeConstraint ::= SEQUENCE {
  contentType OBJECT IDENTIFIER,
  canSource ContentTypeGeneration DEFAULT canSource,
  attrConstraints AttrConstraintList OPTIONAL }
AttrConstraintList ::= SEQUENCE SIZE (1..MAX) OF AttrConstraint
AttrConstraint ::= SEQUENCE {
  attrType AttributeType,
  attrValues SET SIZE (1..MAX) OF AttributeValue }
END
