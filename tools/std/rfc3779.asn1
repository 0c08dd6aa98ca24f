-- RFC 3779, appendix A.
IPAddrAndASCertExtn DEFINITIONS EXPLICIT TAGS ::= BEGIN
IMPORTS id-pe FROM rfc3280;
id-pe-ipAddrBlocks OBJECT IDENTIFIER ::= { id-pe 7 }
IPAddrBlocks ::= SEQUENCE OF IPAddressFamily
IPAddressFamily ::= SEQUENCE {
  addressFamily OCTET STRING (SIZE (2..3)),
  ipAddressChoice IPAddressChoice }
IPAddressChoice ::= CHOICE {
  inherit NULL,
  addressesOrRanges SEQUENCE OF IPAddressOrRange }
IPAddressOrRange ::= CHOICE {
  addressPrefix IPAddress,
  addressRange IPAddressRange }
IPAddressRange ::= SEQUENCE {
  min IPAddress,
  max IPAddress }
IPAddress ::= BIT STRING
id-pe-autonomousSysIds OBJECT IDENTIFIER ::= { id-pe 8 }
ASIdentifiers ::= SEQUENCE {
  asnum [0] ASIdentifierChoice OPTIONAL,
  rdi [1] ASIdentifierChoice OPTIONAL }
ASIdentifierChoice ::= CHOICE {
  inherit NULL,
  asIdsOrRanges SEQUENCE OF ASIdOrRange }
ASIdOrRange ::= CHOICE {
  id ASId,
  range ASRange }
ASRange ::= SEQUENCE {
  min ASId,
  max ASId }
ASId ::= INTEGER
END
