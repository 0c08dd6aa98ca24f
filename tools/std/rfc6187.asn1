-- RFC 6187.
SSH DEFINITIONS EXPLICIT TAGS ::= BEGIN
id-pkix OBJECT IDENTIFIER ::= { iso(1) identified-organization(3) dod(6) internet(1) security(5) mechanisms(5) pkix(7) }
id-kp OBJECT IDENTIFIER ::= { id-pkix 3 }
id-kp-secureShellClient OBJECT IDENTIFIER ::= { id-kp 21 }
id-kp-secureShellServer OBJECT IDENTIFIER ::= { id-kp 22 }
END
