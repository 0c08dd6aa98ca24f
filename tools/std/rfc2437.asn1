-- RFC 2437 (PKCS #1 v2.0), section 11.
PKCS-1 DEFINITIONS EXPLICIT TAGS ::= BEGIN
IMPORTS AlgorithmIdentifier FROM rfc2459;
pkcs-1 OBJECT IDENTIFIER ::= { iso(1) member-body(2) us(840) rsadsi(113549) pkcs(1) 1 }
rsaEncryption OBJECT IDENTIFIER ::= { pkcs-1 1 }
md2WithRSAEncryption OBJECT IDENTIFIER ::= { pkcs-1 2 }
md4WithRSAEncryption OBJECT IDENTIFIER ::= { pkcs-1 3 }
md5WithRSAEncryption OBJECT IDENTIFIER ::= { pkcs-1 4 }
sha1WithRSAEncryption OBJECT IDENTIFIER ::= { pkcs-1 5 }
rsaOAEPEncryptionSET OBJECT IDENTIFIER ::= { pkcs-1 6 }
id-RSAES-OAEP OBJECT IDENTIFIER ::= { pkcs-1 7 }
id-mgf1 OBJECT IDENTIFIER ::= { pkcs-1 8 }
id-pSpecified OBJECT IDENTIFIER ::= { pkcs-1 9 }
id-sha1 OBJECT IDENTIFIER ::= { iso(1) identified-organization(3) oiw(14) secsig(3) algorithms(2) 26 }
RSAPublicKey ::= SEQUENCE {
  modulus INTEGER,
  publicExponent INTEGER }
Version ::= INTEGER
RSAPrivateKey ::= SEQUENCE {
  version Version,
  modulus INTEGER,
  publicExponent INTEGER,
  privateExponent INTEGER,
  prime1 INTEGER,
  prime2 INTEGER,
  exponent1 INTEGER,
  exponent2 INTEGER,
  coefficient INTEGER }
sha1Identifier AlgorithmIdentifier ::= { algorithm id-sha1, parameters NULL : NULL }
mgf1SHA1Identifier AlgorithmIdentifier ::= { algorithm id-mgf1, parameters AlgorithmIdentifier : sha1Identifier }
pSpecifiedEmptyIdentifier AlgorithmIdentifier ::= { algorithm id-pSpecified, parameters OCTET STRING : ''H }
RSAES-OAEP-params ::= SEQUENCE {
  hashFunc [0] AlgorithmIdentifier DEFAULT sha1Identifier,
  maskGenFunc [1] AlgorithmIdentifier DEFAULT mgf1SHA1Identifier,
  pSourceFunc [2] AlgorithmIdentifier DEFAULT pSpecifiedEmptyIdentifier }
END
