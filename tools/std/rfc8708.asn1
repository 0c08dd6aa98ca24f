-- RFC 8708.
MTS-HashSig-2013 DEFINITIONS IMPLICIT TAGS ::= BEGIN
id-alg-hss-lms-hashsig OBJECT IDENTIFIER ::= { iso(1) member-body(2) us(840) rsadsi(113549) pkcs(1) pkcs9(9) smime(16) alg(3) 17 }
id-alg-mts-hashsig OBJECT IDENTIFIER ::= { iso(1) member-body(2) us(840) rsadsi(113549) pkcs(1) pkcs9(9) smime(16) alg(3) 17 }
HSS-LMS-HashSig-PublicKey ::= OCTET STRING
END
