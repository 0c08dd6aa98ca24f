SNMPv3MessageSyntax DEFINITIONS IMPLICIT TAGS ::= BEGIN
ScopedPDU ::= SEQUENCE {
  contextEngineId OCTET STRING,
  contextName OCTET STRING,
  data rfc1905.PDUs }
END
