-- RFC 6210.
MD5-HASH-EXPERIMENT DEFINITIONS IMPLICIT TAGS ::= BEGIN
id-alg-MD5-XOR-EXPERIMENT OBJECT IDENTIFIER ::= { iso(1) member-body(2) us(840) rsadsi(113549) pkcs(1) pkcs9(9) smime(16) alg(3) 13 }
MD5-XOR-EXPERIMENT ::= OCTET STRING (SIZE (64))
END
