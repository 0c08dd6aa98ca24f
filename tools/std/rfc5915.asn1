-- RFC 5915.
ECPrivateKey DEFINITIONS EXPLICIT TAGS ::= BEGIN
IMPORTS ECParameters FROM rfc5480;
ECPrivateKey ::= SEQUENCE {
  version INTEGER { ecPrivkeyVer1(1) } (ecPrivkeyVer1),
  privateKey OCTET STRING,
  parameters [0] ECParameters OPTIONAL,
  publicKey [1] BIT STRING OPTIONAL }
END
