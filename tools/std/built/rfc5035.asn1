-- The default algorithm has an empty OCTET STRING for parameters.
ExtendedSecurityServices-2006 DEFINITIONS IMPLICIT TAGS ::= BEGIN
ESSCertIDv2 ::= SEQUENCE {
  hashAlgorithm AlgorithmIdentifier DEFAULT { algorithm id-sha256, parameters OCTET STRING : ''H },
  certHash Hash,
  issuerSerial IssuerSerial OPTIONAL }
END
