-- RFC 4043.
PKIXpermanentidentifier88 DEFINITIONS EXPLICIT TAGS ::= BEGIN
IMPORTS id-pkix FROM rfc5280;
id-on OBJECT IDENTIFIER ::= { id-pkix 8 }
id-on-permanentIdentifier OBJECT IDENTIFIER ::= { id-on 3 }
PermanentIdentifier ::= SEQUENCE {
  identifierValue UTF8String OPTIONAL,
  assigner OBJECT IDENTIFIER OPTIONAL }
END
