-- RFC 4683.
PKIXSIM DEFINITIONS EXPLICIT TAGS ::= BEGIN
IMPORTS AlgorithmIdentifier FROM rfc5280;
id-pkix OBJECT IDENTIFIER ::= { iso(1) identified-organization(3) dod(6) internet(1) security(5) mechanisms(5) pkix(7) }
id-on OBJECT IDENTIFIER ::= { id-pkix 8 }
id-on-SIM OBJECT IDENTIFIER ::= { id-on 6 }
SIM ::= SEQUENCE {
  hashAlg AlgorithmIdentifier,
  authorityRandom OCTET STRING,
  pEPSI OCTET STRING }
HashContent ::= SEQUENCE {
  userPassword UTF8String,
  authorityRandom OCTET STRING,
  identifierType OBJECT IDENTIFIER,
  identifier UTF8String }
id-pkip OBJECT IDENTIFIER ::= { id-pkix 5 }
id-regEPEPSI OBJECT IDENTIFIER ::= { id-pkip 3 }
EncryptedPEPSI ::= SEQUENCE {
  identifierType OBJECT IDENTIFIER,
  identifier UTF8String,
  sIM SIM }
END
