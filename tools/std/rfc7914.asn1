-- RFC 7914.
Scrypt-0 DEFINITIONS EXPLICIT TAGS ::= BEGIN
id-scrypt OBJECT IDENTIFIER ::= { 1 3 6 1 4 1 11591 4 11 }
Scrypt-params ::= SEQUENCE {
  salt OCTET STRING,
  costParameter INTEGER (1..MAX),
  blockSize INTEGER (1..MAX),
  parallelizationParameter INTEGER (1..MAX),
  keyLength INTEGER (1..MAX) OPTIONAL }
END
