PublicKeySMIMECapabilities DEFINITIONS IMPLICIT TAGS ::= BEGIN
RsaSsa-Pss-sig-caps ::= SEQUENCE {
  hashAlg AlgorithmIdentifier,
  maskAlg AlgorithmIdentifier OPTIONAL,
  trailerField INTEGER DEFAULT 1 }
DSAKeyCapabilities ::= CHOICE {
  keySizes [0] EXPLICIT SEQUENCE {
    minKeySize DSAKeySize,
    maxKeySize DSAKeySize OPTIONAL,
    maxSizeP [1] EXPLICIT INTEGER OPTIONAL,
    maxSizeQ [2] EXPLICIT INTEGER OPTIONAL,
    maxSizeG [3] EXPLICIT INTEGER OPTIONAL },
  keyParams [1] EXPLICIT rfc3279.Dss-Parms }
END
