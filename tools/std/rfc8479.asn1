-- RFC 8479.
Validation-Parameters DEFINITIONS EXPLICIT TAGS ::= BEGIN
id-attr-validation-parameters OBJECT IDENTIFIER ::= { 1 3 6 1 4 1 2312 18 8 1 }
ValidationParams ::= SEQUENCE {
  hashAlg OBJECT IDENTIFIER,
  seed OCTET STRING }
END
