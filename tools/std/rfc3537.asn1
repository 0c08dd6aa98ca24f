-- RFC 3537.
HMACwrap DEFINITIONS EXPLICIT TAGS ::= BEGIN
id-alg-HMACwith3DESwrap OBJECT IDENTIFIER ::= { iso(1) member-body(2) us(840) rsadsi(113549) pkcs(1) pkcs-9(9) smime(16) alg(3) 11 }
id-alg-HMACwithAESwrap OBJECT IDENTIFIER ::= { iso(1) member-body(2) us(840) rsadsi(113549) pkcs(1) pkcs-9(9) smime(16) alg(3) 12 }
END
