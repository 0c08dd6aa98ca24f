ExtendedSecurityServices DEFINITIONS IMPLICIT TAGS ::= BEGIN
SecurityCategory ::= SEQUENCE {
  type [0] OBJECT IDENTIFIER,
  value [1] PRIMITIVE ANY DEFINED BY type }
END
