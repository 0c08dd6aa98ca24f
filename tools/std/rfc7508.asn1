-- RFC 7508.
SMimeSecureHeadersV1 DEFINITIONS IMPLICIT TAGS ::= BEGIN
id-aa OBJECT IDENTIFIER ::= { iso(1) member-body(2) us(840) rsadsi(113549) pkcs(1) pkcs9(9) smime(16) 2 }
id-aa-secureHeaderFieldsIdentifier OBJECT IDENTIFIER ::= { id-aa 55 }
SecureHeaderFields ::= SET {
  canonAlgorithm Algorithm,
  secHeaderFields HeaderFields }
HeaderFields ::= SEQUENCE SIZE (1..MAX) OF HeaderField
HeaderField ::= SEQUENCE {
  field-Name HeaderFieldName,
  field-Value HeaderFieldValue,
  field-Status HeaderFieldStatus DEFAULT duplicated }
HeaderFieldName ::= VisibleString (FROM (ALL EXCEPT ":"))
HeaderFieldValue ::= UTF8String
HeaderFieldStatus ::= INTEGER { duplicated(0), deleted(1), modified(2) }
Algorithm ::= ENUMERATED { canonAlgorithmSimple(0), canonAlgorithmRelaxed(1) }
END
