-- RFC 8360.
IPAddrAndASCertExtn-2016 DEFINITIONS EXPLICIT TAGS ::= BEGIN
IMPORTS IPAddrBlocks, ASIdentifiers FROM rfc3779;
id-pe-ipAddrBlocks-v2 OBJECT IDENTIFIER ::= { iso(1) identified-organization(3) dod(6) internet(1) security(5) mechanisms(5) pkix(7) pe(1) 28 }
id-pe-autonomousSysIds-v2 OBJECT IDENTIFIER ::= { iso(1) identified-organization(3) dod(6) internet(1) security(5) mechanisms(5) pkix(7) pe(1) 29 }
END
