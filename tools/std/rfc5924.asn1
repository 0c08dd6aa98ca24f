-- RFC 5924.
SIPDomain DEFINITIONS EXPLICIT TAGS ::= BEGIN
id-kp OBJECT IDENTIFIER ::= { iso(1) identified-organization(3) dod(6) internet(1) security(5) mechanisms(5) pkix(7) 3 }
id-kp-sipDomain OBJECT IDENTIFIER ::= { id-kp 20 }
END
