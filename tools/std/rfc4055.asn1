-- RFC 4055, section 6.
PKIX1-PSS-OAEP-Algorithms DEFINITIONS EXPLICIT TAGS ::= BEGIN
IMPORTS AlgorithmIdentifier FROM rfc5280;
pkcs-1 OBJECT IDENTIFIER ::= { iso(1) member-body(2) us(840) rsadsi(113549) pkcs(1) 1 }
rsaEncryption OBJECT IDENTIFIER ::= { pkcs-1 1 }
id-RSAES-OAEP OBJECT IDENTIFIER ::= { pkcs-1 7 }
id-pSpecified OBJECT IDENTIFIER ::= { pkcs-1 9 }
id-RSASSA-PSS OBJECT IDENTIFIER ::= { pkcs-1 10 }
sha224WithRSAEncryption OBJECT IDENTIFIER ::= { pkcs-1 14 }
sha256WithRSAEncryption OBJECT IDENTIFIER ::= { pkcs-1 11 }
sha384WithRSAEncryption OBJECT IDENTIFIER ::= { pkcs-1 12 }
sha512WithRSAEncryption OBJECT IDENTIFIER ::= { pkcs-1 13 }
id-mgf1 OBJECT IDENTIFIER ::= { pkcs-1 8 }
id-sha1 OBJECT IDENTIFIER ::= { iso(1) identified-organization(3) oiw(14) secsig(3) algorithms(2) 26 }
id-sha224 OBJECT IDENTIFIER ::= { joint-iso-itu-t(2) country(16) us(840) organization(1) gov(101) csor(3) nistalgorithm(4) hashalgs(2) 4 }
id-sha256 OBJECT IDENTIFIER ::= { joint-iso-itu-t(2) country(16) us(840) organization(1) gov(101) csor(3) nistalgorithm(4) hashalgs(2) 1 }
id-sha384 OBJECT IDENTIFIER ::= { joint-iso-itu-t(2) country(16) us(840) organization(1) gov(101) csor(3) nistalgorithm(4) hashalgs(2) 2 }
id-sha512 OBJECT IDENTIFIER ::= { joint-iso-itu-t(2) country(16) us(840) organization(1) gov(101) csor(3) nistalgorithm(4) hashalgs(2) 3 }
sha1Identifier AlgorithmIdentifier ::= { algorithm id-sha1, parameters NULL : NULL }
sha224Identifier AlgorithmIdentifier ::= { algorithm id-sha224, parameters NULL : NULL }
sha256Identifier AlgorithmIdentifier ::= { algorithm id-sha256, parameters NULL : NULL }
sha384Identifier AlgorithmIdentifier ::= { algorithm id-sha384, parameters NULL : NULL }
sha512Identifier AlgorithmIdentifier ::= { algorithm id-sha512, parameters NULL : NULL }
mgf1SHA1Identifier AlgorithmIdentifier ::= { algorithm id-mgf1, parameters AlgorithmIdentifier : sha1Identifier }
mgf1SHA224Identifier AlgorithmIdentifier ::= { algorithm id-mgf1, parameters AlgorithmIdentifier : sha224Identifier }
mgf1SHA256Identifier AlgorithmIdentifier ::= { algorithm id-mgf1, parameters AlgorithmIdentifier : sha256Identifier }
mgf1SHA384Identifier AlgorithmIdentifier ::= { algorithm id-mgf1, parameters AlgorithmIdentifier : sha384Identifier }
mgf1SHA512Identifier AlgorithmIdentifier ::= { algorithm id-mgf1, parameters AlgorithmIdentifier : sha512Identifier }
pSpecifiedEmptyIdentifier AlgorithmIdentifier ::= { algorithm id-pSpecified, parameters OCTET STRING : ''H }
rSASSA-PSS-Default-Params RSASSA-PSS-params ::= { hashAlgorithm sha1Identifier, maskGenAlgorithm mgf1SHA1Identifier, saltLength 20, trailerField 1 }
rSASSA-PSS-Default-Identifier AlgorithmIdentifier ::= { algorithm id-RSASSA-PSS, parameters RSASSA-PSS-params : rSASSA-PSS-Default-Params }
rSASSA-PSS-SHA224-Params RSASSA-PSS-params ::= { hashAlgorithm sha224Identifier, maskGenAlgorithm mgf1SHA224Identifier, saltLength 20, trailerField 1 }
rSASSA-PSS-SHA224-Identifier AlgorithmIdentifier ::= { algorithm id-RSASSA-PSS, parameters RSASSA-PSS-params : rSASSA-PSS-SHA224-Params }
rSASSA-PSS-SHA256-Params RSASSA-PSS-params ::= { hashAlgorithm sha256Identifier, maskGenAlgorithm mgf1SHA256Identifier, saltLength 20, trailerField 1 }
rSASSA-PSS-SHA256-Identifier AlgorithmIdentifier ::= { algorithm id-RSASSA-PSS, parameters RSASSA-PSS-params : rSASSA-PSS-SHA256-Params }
rSASSA-PSS-SHA384-Params RSASSA-PSS-params ::= { hashAlgorithm sha384Identifier, maskGenAlgorithm mgf1SHA384Identifier, saltLength 20, trailerField 1 }
rSASSA-PSS-SHA384-Identifier AlgorithmIdentifier ::= { algorithm id-RSASSA-PSS, parameters RSASSA-PSS-params : rSASSA-PSS-SHA384-Params }
rSASSA-PSS-SHA512-Params RSASSA-PSS-params ::= { hashAlgorithm sha512Identifier, maskGenAlgorithm mgf1SHA512Identifier, saltLength 20, trailerField 1 }
rSASSA-PSS-SHA512-Identifier AlgorithmIdentifier ::= { algorithm id-RSASSA-PSS, parameters RSASSA-PSS-params : rSASSA-PSS-SHA512-Params }
rSAES-OAEP-Default-Params RSAES-OAEP-params ::= { hashFunc sha1Identifier, maskGenFunc mgf1SHA1Identifier, pSourceFunc pSpecifiedEmptyIdentifier }
rSAES-OAEP-Default-Identifier AlgorithmIdentifier ::= { algorithm id-RSAES-OAEP, parameters RSAES-OAEP-params : rSAES-OAEP-Default-Params }
rSAES-OAEP-SHA224-Params RSAES-OAEP-params ::= { hashFunc sha224Identifier, maskGenFunc mgf1SHA224Identifier, pSourceFunc pSpecifiedEmptyIdentifier }
rSAES-OAEP-SHA224-Identifier AlgorithmIdentifier ::= { algorithm id-RSAES-OAEP, parameters RSAES-OAEP-params : rSAES-OAEP-SHA224-Params }
rSAES-OAEP-SHA256-Params RSAES-OAEP-params ::= { hashFunc sha256Identifier, maskGenFunc mgf1SHA256Identifier, pSourceFunc pSpecifiedEmptyIdentifier }
rSAES-OAEP-SHA256-Identifier AlgorithmIdentifier ::= { algorithm id-RSAES-OAEP, parameters RSAES-OAEP-params : rSAES-OAEP-SHA256-Params }
rSAES-OAEP-SHA384-Params RSAES-OAEP-params ::= { hashFunc sha384Identifier, maskGenFunc mgf1SHA384Identifier, pSourceFunc pSpecifiedEmptyIdentifier }
rSAES-OAEP-SHA384-Identifier AlgorithmIdentifier ::= { algorithm id-RSAES-OAEP, parameters RSAES-OAEP-params : rSAES-OAEP-SHA384-Params }
rSAES-OAEP-SHA512-Params RSAES-OAEP-params ::= { hashFunc sha512Identifier, maskGenFunc mgf1SHA512Identifier, pSourceFunc pSpecifiedEmptyIdentifier }
rSAES-OAEP-SHA512-Identifier AlgorithmIdentifier ::= { algorithm id-RSAES-OAEP, parameters RSAES-OAEP-params : rSAES-OAEP-SHA512-Params }
RSAPublicKey ::= SEQUENCE {
  modulus INTEGER,
  publicExponent INTEGER }
HashAlgorithm ::= AlgorithmIdentifier
MaskGenAlgorithm ::= AlgorithmIdentifier
RSASSA-PSS-params ::= SEQUENCE {
  hashAlgorithm [0] HashAlgorithm DEFAULT sha1Identifier,
  maskGenAlgorithm [1] MaskGenAlgorithm DEFAULT mgf1SHA1Identifier,
  saltLength [2] INTEGER DEFAULT 20,
  trailerField [3] INTEGER DEFAULT 1 }
RSAES-OAEP-params ::= SEQUENCE {
  hashFunc [0] AlgorithmIdentifier DEFAULT sha1Identifier,
  maskGenFunc [1] AlgorithmIdentifier DEFAULT mgf1SHA1Identifier,
  pSourceFunc [2] AlgorithmIdentifier DEFAULT pSpecifiedEmptyIdentifier }
END
