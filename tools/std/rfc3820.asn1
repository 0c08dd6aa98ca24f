-- RFC 3820, appendix A.
PKIXproxyAlgorithms DEFINITIONS EXPLICIT TAGS ::= BEGIN
id-pkix OBJECT IDENTIFIER ::= { iso(1) identified-organization(3) dod(6) internet(1) security(5) mechanisms(5) pkix(7) }
id-pe OBJECT IDENTIFIER ::= { id-pkix 1 }
id-pe-proxyCertInfo OBJECT IDENTIFIER ::= { id-pe 14 }
id-ppl OBJECT IDENTIFIER ::= { id-pkix 21 }
id-ppl-anyLanguage OBJECT IDENTIFIER ::= { id-ppl 0 }
id-ppl-inheritAll OBJECT IDENTIFIER ::= { id-ppl 1 }
id-ppl-independent OBJECT IDENTIFIER ::= { id-ppl 2 }
ProxyCertInfoExtension ::= SEQUENCE {
  pCPathLenConstraint ProxyCertPathLengthConstraint OPTIONAL,
  proxyPolicy ProxyPolicy }
ProxyCertPathLengthConstraint ::= INTEGER
ProxyPolicy ::= SEQUENCE {
  policyLanguage OBJECT IDENTIFIER,
  policy OCTET STRING OPTIONAL }
END
