-- RFC 7030.
EST DEFINITIONS IMPLICIT TAGS ::= BEGIN
IMPORTS Attribute FROM rfc5652;
id-aa-asymmDecryptKeyID OBJECT IDENTIFIER ::= { iso(1) member-body(2) us(840) rsadsi(113549) pkcs(1) pkcs9(9) smime(16) aa(2) 54 }
AsymmetricDecryptKeyIdentifier ::= OCTET STRING
CsrAttrs ::= SEQUENCE SIZE (0..MAX) OF AttrOrOID
AttrOrOID ::= CHOICE {
  oid OBJECT IDENTIFIER,
  attribute Attribute }
END
