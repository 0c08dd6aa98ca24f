-- RFC 3058.
IDEA-CMS DEFINITIONS EXPLICIT TAGS ::= BEGIN
id-IDEA-CBC OBJECT IDENTIFIER ::= { iso(1) identified-organization(3) dod(6) oid(1) private(4) enterprises(1) ascom(188) systec(7) security(1) algorithms(1) 2 }
id-alg-CMSIDEAwrap OBJECT IDENTIFIER ::= { iso(1) identified-organization(3) dod(6) oid(1) private(4) enterprises(1) ascom(188) systec(7) security(1) algorithms(1) 6 }
IDEA-CBCPar ::= SEQUENCE {
  iv OCTET STRING OPTIONAL }
END
