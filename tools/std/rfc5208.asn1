-- RFC 5208 (PKCS #8 v1.2).
PKCS-8 DEFINITIONS EXPLICIT TAGS ::= BEGIN
IMPORTS AlgorithmIdentifier, Attribute FROM rfc5280;
PrivateKeyInfo ::= SEQUENCE {
  version Version,
  privateKeyAlgorithm AlgorithmIdentifier,
  privateKey PrivateKey,
  attributes [0] IMPLICIT Attributes OPTIONAL }
Version ::= INTEGER { v1(0) }
PrivateKey ::= OCTET STRING
Attributes ::= SET OF Attribute
EncryptedPrivateKeyInfo ::= SEQUENCE {
  encryptionAlgorithm AlgorithmIdentifier,
  encryptedData EncryptedData }
EncryptedData ::= OCTET STRING
KeyEncryptionAlgorithms ::= AlgorithmIdentifier
PrivateKeyAlgorithms ::= AlgorithmIdentifier
END
