-- RFC 5913.
ClearanceConstraints DEFINITIONS EXPLICIT TAGS ::= BEGIN
IMPORTS Clearance FROM rfc5755;
id-pe-clearanceConstraints OBJECT IDENTIFIER ::= { iso(1) identified-organization(3) dod(6) internet(1) security(5) mechanisms(5) pkix(7) pe(1) 21 }
AuthorityClearanceConstraints ::= SEQUENCE SIZE (1..MAX) OF Clearance
END
