-- RFC 8649.
HashedRootKeyCertExtn DEFINITIONS IMPLICIT TAGS ::= BEGIN
IMPORTS AlgorithmIdentifier FROM rfc5280;
id-ce-hashOfRootKey OBJECT IDENTIFIER ::= { 1 3 6 1 4 1 51483 2 1 }
HashedRootKey ::= SEQUENCE {
  hashAlg AlgorithmIdentifier,
  hashValue OCTET STRING }
END
