COMMUNITY-BASED-SNMPv2 DEFINITIONS IMPLICIT TAGS ::= BEGIN
Message ::= SEQUENCE {
  version INTEGER { version-2c(1) },
  community OCTET STRING,
  data ANY }
END
