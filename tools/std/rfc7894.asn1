-- RFC 7894.
EST-Alternative-Challenge-Password DEFINITIONS EXPLICIT TAGS ::= BEGIN
ub-aa-otpChallenge INTEGER ::= 255
id-aa-otpChallenge OBJECT IDENTIFIER ::= { iso(1) member-body(2) us(840) rsadsi(113549) pkcs(1) pkcs9(9) smime(16) aa(2) 56 }
ub-aa-revocationChallenge INTEGER ::= 255
id-aa-revocationChallenge OBJECT IDENTIFIER ::= { iso(1) member-body(2) us(840) rsadsi(113549) pkcs(1) pkcs9(9) smime(16) aa(2) 57 }
ub-aa-est-identity-linking INTEGER ::= 255
id-aa-estIdentityLinking OBJECT IDENTIFIER ::= { iso(1) member-body(2) us(840) rsadsi(113549) pkcs(1) pkcs9(9) smime(16) aa(2) 58 }
END
