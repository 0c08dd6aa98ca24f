-- RFC 8520.
MUDURLExtnModule-2016 DEFINITIONS EXPLICIT TAGS ::= BEGIN
IMPORTS Name FROM rfc5280;
id-pe-mud-url OBJECT IDENTIFIER ::= { iso(1) identified-organization(3) dod(6) internet(1) security(5) mechanisms(5) pkix(7) pe(1) 25 }
MUDURLSyntax ::= IA5String
id-pe-mudsigner OBJECT IDENTIFIER ::= { iso(1) identified-organization(3) dod(6) internet(1) security(5) mechanisms(5) pkix(7) pe(1) 30 }
MUDsignerSyntax ::= Name
id-ct-mudtype OBJECT IDENTIFIER ::= { iso(1) member-body(2) us(840) rsadsi(113549) pkcs(1) pkcs9(9) smime(16) ct(1) 41 }
END
