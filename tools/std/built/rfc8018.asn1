PKCS5v2-1 DEFINITIONS EXPLICIT TAGS ::= BEGIN
AES-IV ::= OCTET STRING (SIZE (16))
DES-IV ::= OCTET STRING (SIZE (8))
RC5-CBC-Parameters ::= SEQUENCE {
  version INTEGER { v1_0(16) } (v1_0),
  rounds INTEGER (8..127),
  blockSizeInBits INTEGER (64 | 128),
  iv OCTET STRING OPTIONAL }
END
