-- RFC 8769.
CBOR DEFINITIONS EXPLICIT TAGS ::= BEGIN
id-ct-cbor OBJECT IDENTIFIER ::= { iso(1) member-body(2) us(840) rsadsi(113549) pkcs(1) pkcs9(9) smime(16) ct(1) 44 }
id-ct-cborSequence OBJECT IDENTIFIER ::= { iso(1) member-body(2) us(840) rsadsi(113549) pkcs(1) pkcs9(9) smime(16) ct(1) 45 }
END
