SNMPv2-PDU DEFINITIONS IMPLICIT TAGS ::= BEGIN
BindValue ::= CHOICE {
  value ObjectSyntax,
  unSpecified NULL,
  noSuchObject [0] IMPLICIT NULL,
  noSuchInstance [1] IMPLICIT NULL,
  endOfMibView [2] IMPLICIT NULL }
VarBind ::= SEQUENCE {
  name ObjectName,
  BindValue }
END
