-- RFC 6664; capabilities for RSASSA-PSS and DSA left out.
PublicKeySMIMECapabilities DEFINITIONS IMPLICIT TAGS ::= BEGIN
IMPORTS AlgorithmIdentifier FROM rfc5280
  Dss-Parms FROM rfc3279
  ECParameters, id-ecPublicKey, id-ecDH, id-ecMQV, id-dsa, dhpublicnumber FROM rfc5480
  rsaEncryption, id-mgf1, id-RSAES-OAEP, id-RSASSA-PSS FROM rfc4055;
RSAKeyCapabilities ::= SEQUENCE {
  minKeySize RSAKeySize,
  maxKeySize RSAKeySize OPTIONAL }
RSAKeySize ::= INTEGER -- (1024 | 2048 | 3072 | 7680 | 15360 | 4096 | 8192, ...)
DSAKeySize ::= INTEGER (1024 | 2048 | 3072 | 7680 | 15360)
EC-SMimeCaps ::= SEQUENCE (SIZE (1..MAX)) OF ECParameters
END
