SNMPv2-SMI DEFINITIONS EXPLICIT TAGS ::= BEGIN
Integer ::= INTEGER (-2147483648..2147483647)
OctetString ::= OCTET STRING (SIZE (0..65535))
Bits ::= OCTET STRING
ApplicationSyntax ::= CHOICE {
  ipAddress-value IpAddress,
  counter-value Counter32,
  timeticks-value TimeTicks,
  arbitrary-value Opaque,
  big-counter-value Counter64,
  gauge32-value Gauge32 }
END
