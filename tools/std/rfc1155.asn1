-- RFC 1155, section 6.
RFC1155-SMI DEFINITIONS EXPLICIT TAGS ::= BEGIN
internet OBJECT IDENTIFIER ::= { iso(1) org(3) dod(6) 1 }
directory OBJECT IDENTIFIER ::= { internet 1 }
mgmt OBJECT IDENTIFIER ::= { internet 2 }
experimental OBJECT IDENTIFIER ::= { internet 3 }
private OBJECT IDENTIFIER ::= { internet 4 }
enterprises OBJECT IDENTIFIER ::= { private 1 }
ObjectName ::= OBJECT IDENTIFIER
ObjectSyntax ::= CHOICE {
  simple SimpleSyntax,
  application-wide ApplicationSyntax }
SimpleSyntax ::= CHOICE {
  number INTEGER,
  string OCTET STRING,
  object OBJECT IDENTIFIER,
  empty NULL }
ApplicationSyntax ::= CHOICE {
  address NetworkAddress,
  counter Counter,
  gauge Gauge,
  ticks TimeTicks,
  arbitrary Opaque }
NetworkAddress ::= CHOICE { internet IpAddress }
IpAddress ::= [APPLICATION 0] IMPLICIT OCTET STRING (SIZE (4))
Counter ::= [APPLICATION 1] IMPLICIT INTEGER (0..4294967295)
Gauge ::= [APPLICATION 2] IMPLICIT INTEGER (0..4294967295)
TimeTicks ::= [APPLICATION 3] IMPLICIT INTEGER (0..4294967295)
Opaque ::= [APPLICATION 4] IMPLICIT OCTET STRING
END
