-- RFC 3447 (PKCS #1 v2.1), appendix C, with the parameterised types written out.
PKCS-1 DEFINITIONS EXPLICIT TAGS ::= BEGIN
IMPORTS AlgorithmIdentifier FROM rfc2459;
pkcs-1 OBJECT IDENTIFIER ::= { iso(1) member-body(2) us(840) rsadsi(113549) pkcs(1) 1 }
rsaEncryption OBJECT IDENTIFIER ::= { pkcs-1 1 }
id-RSAES-OAEP OBJECT IDENTIFIER ::= { pkcs-1 7 }
id-pSpecified OBJECT IDENTIFIER ::= { pkcs-1 9 }
id-RSASSA-PSS OBJECT IDENTIFIER ::= { pkcs-1 10 }
md2WithRSAEncryption OBJECT IDENTIFIER ::= { pkcs-1 2 }
md5WithRSAEncryption OBJECT IDENTIFIER ::= { pkcs-1 4 }
sha1WithRSAEncryption OBJECT IDENTIFIER ::= { pkcs-1 5 }
sha256WithRSAEncryption OBJECT IDENTIFIER ::= { pkcs-1 11 }
sha384WithRSAEncryption OBJECT IDENTIFIER ::= { pkcs-1 12 }
sha512WithRSAEncryption OBJECT IDENTIFIER ::= { pkcs-1 13 }
id-sha1 OBJECT IDENTIFIER ::= { iso(1) identified-organization(3) oiw(14) secsig(3) algorithms(2) 26 }
id-md2 OBJECT IDENTIFIER ::= { iso(1) member-body(2) us(840) rsadsi(113549) digestAlgorithm(2) 2 }
id-md5 OBJECT IDENTIFIER ::= { iso(1) member-body(2) us(840) rsadsi(113549) digestAlgorithm(2) 5 }
id-mgf1 OBJECT IDENTIFIER ::= { pkcs-1 8 }
id-sha256 OBJECT IDENTIFIER ::= { joint-iso-itu-t(2) country(16) us(840) organization(1) gov(101) csor(3) nistalgorithm(4) hashalgs(2) 1 }
id-sha384 OBJECT IDENTIFIER ::= { joint-iso-itu-t(2) country(16) us(840) organization(1) gov(101) csor(3) nistalgorithm(4) hashalgs(2) 2 }
id-sha512 OBJECT IDENTIFIER ::= { joint-iso-itu-t(2) country(16) us(840) organization(1) gov(101) csor(3) nistalgorithm(4) hashalgs(2) 3 }
RSAPublicKey ::= SEQUENCE {
  modulus INTEGER,
  publicExponent INTEGER }
RSAPrivateKey ::= SEQUENCE {
  version Version,
  modulus INTEGER,
  publicExponent INTEGER,
  privateExponent INTEGER,
  prime1 INTEGER,
  prime2 INTEGER,
  exponent1 INTEGER,
  exponent2 INTEGER,
  coefficient INTEGER,
  otherPrimeInfos OtherPrimeInfos OPTIONAL }
Version ::= INTEGER { two-prime(0), multi(1) }
OtherPrimeInfos ::= SEQUENCE SIZE (1..MAX) OF OtherPrimeInfo
OtherPrimeInfo ::= SEQUENCE {
  prime INTEGER,
  exponent INTEGER,
  coefficient INTEGER }
HashAlgorithm ::= AlgorithmIdentifier
MaskGenAlgorithm ::= AlgorithmIdentifier
PSourceAlgorithm ::= AlgorithmIdentifier
DigestAlgorithm ::= AlgorithmIdentifier
EncodingParameters ::= OCTET STRING (SIZE (0..MAX))
TrailerField ::= INTEGER { trailerFieldBC(1) }
DigestInfo ::= SEQUENCE {
  digestAlgorithm DigestAlgorithm,
  digest OCTET STRING }
END
