-- RFC 7585.
NAIRealm DEFINITIONS EXPLICIT TAGS ::= BEGIN
id-pkix OBJECT IDENTIFIER ::= { iso(1) identified-organization(3) dod(6) internet(1) security(5) mechanisms(5) pkix(7) }
id-on OBJECT IDENTIFIER ::= { id-pkix 8 }
id-on-naiRealm OBJECT IDENTIFIER ::= { id-on 8 }
ub-naiRealm-length INTEGER ::= 255
NAIRealm ::= UTF8String (SIZE (1..ub-naiRealm-length))
END
