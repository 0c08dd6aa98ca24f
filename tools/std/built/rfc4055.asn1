-- Defaults that are AlgorithmIdentifiers are left out.
PKIX1-PSS-OAEP-Algorithms DEFINITIONS EXPLICIT TAGS ::= BEGIN
RSAES-OAEP-params ::= SEQUENCE {
  hashFunc [0] AlgorithmIdentifier OPTIONAL,
  maskGenFunc [1] AlgorithmIdentifier OPTIONAL,
  pSourceFunc [2] AlgorithmIdentifier OPTIONAL }
RSASSA-PSS-params ::= SEQUENCE {
  hashAlgorithm [0] AlgorithmIdentifier OPTIONAL,
  maskGenAlgorithm [1] AlgorithmIdentifier OPTIONAL,
  saltLength [2] INTEGER DEFAULT 20,
  trailerField [3] INTEGER DEFAULT 1 }
END
