-- RFC 6170.
CertImage DEFINITIONS EXPLICIT TAGS ::= BEGIN
id-logo-certImage OBJECT IDENTIFIER ::= { iso(1) identified-organization(3) dod(6) internet(1) security(5) mechanisms(5) pkix(7) logo(20) 3 }
END
