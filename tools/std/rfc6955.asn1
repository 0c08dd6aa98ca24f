-- RFC 6955.
DH-Sign DEFINITIONS EXPLICIT TAGS ::= BEGIN
IMPORTS IssuerAndSerialNumber FROM rfc5652
  Dss-Sig-Value, DomainParameters FROM rfc3279;
id-pkix OBJECT IDENTIFIER ::= { iso(1) identified-organization(3) dod(6) internet(1) security(5) mechanisms(5) pkix(7) }
id-dh-sig-hmac-sha1 OBJECT IDENTIFIER ::= { id-pkix id-alg(6) 3 }
id-dhPop-static-sha1-hmac-sha1 OBJECT IDENTIFIER ::= { id-pkix id-alg(6) 3 }
id-alg-dh-pop OBJECT IDENTIFIER ::= { id-pkix id-alg(6) 4 }
id-alg-dhPop-sha1 OBJECT IDENTIFIER ::= { id-pkix id-alg(6) 4 }
id-alg-dhPop-sha224 OBJECT IDENTIFIER ::= { id-pkix id-alg(6) 5 }
id-alg-dhPop-sha256 OBJECT IDENTIFIER ::= { id-pkix id-alg(6) 6 }
id-alg-dhPop-sha384 OBJECT IDENTIFIER ::= { id-pkix id-alg(6) 7 }
id-alg-dhPop-sha512 OBJECT IDENTIFIER ::= { id-pkix id-alg(6) 8 }
id-alg-dhPop-static-sha224-hmac-sha224 OBJECT IDENTIFIER ::= { id-pkix id-alg(6) 15 }
id-alg-dhPop-static-sha256-hmac-sha256 OBJECT IDENTIFIER ::= { id-pkix id-alg(6) 16 }
id-alg-dhPop-static-sha384-hmac-sha384 OBJECT IDENTIFIER ::= { id-pkix id-alg(6) 17 }
id-alg-dhPop-static-sha512-hmac-sha512 OBJECT IDENTIFIER ::= { id-pkix id-alg(6) 18 }
id-alg-ecdhPop-static-sha224-hmac-sha224 OBJECT IDENTIFIER ::= { id-pkix id-alg(6) 25 }
id-alg-ecdhPop-static-sha256-hmac-sha256 OBJECT IDENTIFIER ::= { id-pkix id-alg(6) 26 }
id-alg-ecdhPop-static-sha384-hmac-sha384 OBJECT IDENTIFIER ::= { id-pkix id-alg(6) 27 }
id-alg-ecdhPop-static-sha512-hmac-sha512 OBJECT IDENTIFIER ::= { id-pkix id-alg(6) 28 }
MessageDigest ::= OCTET STRING
DhSigStatic ::= SEQUENCE {
  issuerAndSerial IssuerAndSerialNumber OPTIONAL,
  hashValue MessageDigest }
END
