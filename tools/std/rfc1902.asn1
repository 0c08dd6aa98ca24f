-- RFC 1902, section 2.
SNMPv2-SMI DEFINITIONS EXPLICIT TAGS ::= BEGIN
ObjectName ::= OBJECT IDENTIFIER
NotificationName ::= OBJECT IDENTIFIER
ObjectSyntax ::= CHOICE {
  simple SimpleSyntax,
  application-wide ApplicationSyntax }
SimpleSyntax ::= CHOICE {
  integer-value INTEGER (-2147483648..2147483647),
  string-value OCTET STRING (SIZE (0..65535)),
  objectID-value OBJECT IDENTIFIER }
Integer32 ::= INTEGER (-2147483648..2147483647)
ApplicationSyntax ::= CHOICE {
  ipAddress-value IpAddress,
  counter-value Counter32,
  timeticks-value TimeTicks,
  arbitrary-value Opaque,
  big-counter-value Counter64,
  unsigned-integer-value Unsigned32 }
IpAddress ::= [APPLICATION 0] IMPLICIT OCTET STRING (SIZE (4))
Counter32 ::= [APPLICATION 1] IMPLICIT INTEGER (0..4294967295)
Gauge32 ::= [APPLICATION 2] IMPLICIT INTEGER (0..4294967295)
Unsigned32 ::= [APPLICATION 2] IMPLICIT INTEGER (0..4294967295)
TimeTicks ::= [APPLICATION 3] IMPLICIT INTEGER (0..4294967295)
Opaque ::= [APPLICATION 4] IMPLICIT OCTET STRING
Counter64 ::= [APPLICATION 6] IMPLICIT INTEGER (0..18446744073709551615)
END
