-- RFC 1901, section 3.
COMMUNITY-BASED-SNMPv2 DEFINITIONS IMPLICIT TAGS ::= BEGIN
Message ::= SEQUENCE {
  version INTEGER { version(1) },
  community OCTET STRING,
  data ANY }
END
