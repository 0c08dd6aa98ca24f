-- RFC 8018, appendix C (PKCS #5 version 2.1).
PKCS5v2-1 DEFINITIONS EXPLICIT TAGS ::= BEGIN
IMPORTS AlgorithmIdentifier FROM rfc5280;
rsadsi OBJECT IDENTIFIER ::= { iso(1) member-body(2) us(840) 113549 }
pkcs OBJECT IDENTIFIER ::= { rsadsi 1 }
pkcs-5 OBJECT IDENTIFIER ::= { pkcs 5 }
nistAlgorithms OBJECT IDENTIFIER ::= { joint-iso-itu-t(2) country(16) us(840) organization(1) gov(101) csor(3) 4 }
oiw OBJECT IDENTIFIER ::= { iso(1) identified-organization(3) 14 }
id-PBKDF2 OBJECT IDENTIFIER ::= { pkcs-5 12 }
PBKDF2-params ::= SEQUENCE {
  salt CHOICE {
    specified OCTET STRING,
    otherSource AlgorithmIdentifier },
  iterationCount INTEGER (1..MAX),
  keyLength INTEGER (1..MAX) OPTIONAL,
  prf AlgorithmIdentifier DEFAULT algid-hmacWithSHA1 }
algid-hmacWithSHA1 AlgorithmIdentifier ::= { algorithm id-hmacWithSHA1, parameters NULL : NULL }
pbeWithMD2AndDES-CBC OBJECT IDENTIFIER ::= { pkcs-5 1 }
pbeWithMD2AndRC2-CBC OBJECT IDENTIFIER ::= { pkcs-5 4 }
pbeWithMD5AndDES-CBC OBJECT IDENTIFIER ::= { pkcs-5 3 }
pbeWithMD5AndRC2-CBC OBJECT IDENTIFIER ::= { pkcs-5 6 }
pbeWithSHA1AndDES-CBC OBJECT IDENTIFIER ::= { pkcs-5 10 }
pbeWithSHA1AndRC2-CBC OBJECT IDENTIFIER ::= { pkcs-5 11 }
PBEParameter ::= SEQUENCE {
  salt OCTET STRING (SIZE (8)),
  iterationCount INTEGER }
id-PBES2 OBJECT IDENTIFIER ::= { pkcs-5 13 }
PBES2-params ::= SEQUENCE {
  keyDerivationFunc AlgorithmIdentifier,
  encryptionScheme AlgorithmIdentifier }
id-PBMAC1 OBJECT IDENTIFIER ::= { pkcs-5 14 }
PBMAC1-params ::= SEQUENCE {
  keyDerivationFunc AlgorithmIdentifier,
  messageAuthScheme AlgorithmIdentifier }
digestAlgorithm OBJECT IDENTIFIER ::= { rsadsi 2 }
encryptionAlgorithm OBJECT IDENTIFIER ::= { rsadsi 3 }
id-hmacWithSHA1 OBJECT IDENTIFIER ::= { digestAlgorithm 7 }
id-hmacWithSHA224 OBJECT IDENTIFIER ::= { digestAlgorithm 8 }
id-hmacWithSHA256 OBJECT IDENTIFIER ::= { digestAlgorithm 9 }
id-hmacWithSHA384 OBJECT IDENTIFIER ::= { digestAlgorithm 10 }
id-hmacWithSHA512 OBJECT IDENTIFIER ::= { digestAlgorithm 11 }
id-hmacWithSHA512-224 OBJECT IDENTIFIER ::= { digestAlgorithm 12 }
id-hmacWithSHA512-256 OBJECT IDENTIFIER ::= { digestAlgorithm 13 }
desCBC OBJECT IDENTIFIER ::= { oiw secsig(3) algorithms(2) 7 }
des-EDE3-CBC OBJECT IDENTIFIER ::= { encryptionAlgorithm 7 }
rc2CBC OBJECT IDENTIFIER ::= { encryptionAlgorithm 2 }
RC2-CBC-Parameter ::= SEQUENCE {
  rc2ParameterVersion INTEGER OPTIONAL,
  iv OCTET STRING (SIZE (8)) }
rc5-CBC-PAD OBJECT IDENTIFIER ::= { encryptionAlgorithm 9 }
RC5-CBC-Parameters ::= SEQUENCE {
  version INTEGER { v1-0(16) } (v1-0),
  rounds INTEGER (8..127),
  blockSizeInBits INTEGER (64 | 128),
  iv OCTET STRING OPTIONAL }
aes OBJECT IDENTIFIER ::= { nistAlgorithms 1 }
aes128-CBC-PAD OBJECT IDENTIFIER ::= { aes 2 }
aes192-CBC-PAD OBJECT IDENTIFIER ::= { aes 22 }
aes256-CBC-PAD OBJECT IDENTIFIER ::= { aes 42 }
END
