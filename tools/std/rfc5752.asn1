-- RFC 5752.
MultipleSignatures DEFINITIONS IMPLICIT TAGS ::= BEGIN
IMPORTS DigestAlgorithmIdentifier, SignatureAlgorithmIdentifier FROM rfc5652
  ESSCertIDv2 FROM rfc5035;
id-aa-multipleSignatures OBJECT IDENTIFIER ::= { iso(1) member-body(2) us(840) rsadsi(113549) pkcs(1) pkcs9(9) smime(16) id-aa(2) 51 }
MultipleSignatures ::= SEQUENCE {
  bodyHashAlg DigestAlgorithmIdentifier,
  signAlg SignatureAlgorithmIdentifier,
  signAttrsHash SignAttrsHash,
  cert ESSCertIDv2 OPTIONAL }
SignAttrsHash ::= SEQUENCE {
  algID DigestAlgorithmIdentifier,
  hash OCTET STRING }
END
