-- Implicit tags, no defaults.
PKCS-1 DEFINITIONS EXPLICIT TAGS ::= BEGIN
RSAES-OAEP-params ::= SEQUENCE {
  hashFunc [0] IMPLICIT AlgorithmIdentifier,
  maskGenFunc [1] IMPLICIT AlgorithmIdentifier,
  pSourceFunc [2] IMPLICIT AlgorithmIdentifier }
END
