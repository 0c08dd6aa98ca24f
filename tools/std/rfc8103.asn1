-- RFC 8103.
CMS-AEADChaCha20Poly1305 DEFINITIONS IMPLICIT TAGS ::= BEGIN
id-alg-AEADChaCha20Poly1305 OBJECT IDENTIFIER ::= { iso(1) member-body(2) us(840) rsadsi(113549) pkcs(1) pkcs9(9) smime(16) alg(3) 18 }
AEADChaCha20Poly1305Nonce ::= OCTET STRING (SIZE (12))
END
