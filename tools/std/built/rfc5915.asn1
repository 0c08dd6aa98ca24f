ECPrivateKey DEFINITIONS EXPLICIT TAGS ::= BEGIN
ECPrivateKey ::= SEQUENCE {
  version INTEGER { ecPrivkeyVer1(1) },
  privateKey OCTET STRING,
  parameters [0] ECParameters OPTIONAL,
  publicKey [1] BIT STRING OPTIONAL }
END
