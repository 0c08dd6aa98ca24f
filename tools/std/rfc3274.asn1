-- RFC 3274.
CompressedDataContent DEFINITIONS IMPLICIT TAGS ::= BEGIN
IMPORTS CMSVersion, EncapsulatedContentInfo FROM rfc5652
  AlgorithmIdentifier FROM rfc5280;
CompressedData ::= SEQUENCE {
  version CMSVersion,
  compressionAlgorithm CompressionAlgorithmIdentifier,
  encapContentInfo EncapsulatedContentInfo }
CompressionAlgorithmIdentifier ::= AlgorithmIdentifier
id-ct-compressedData OBJECT IDENTIFIER ::= { iso(1) member-body(2) us(840) rsadsi(113549) pkcs(1) pkcs-9(9) smime(16) ct(1) 9 }
id-alg-zlibCompress OBJECT IDENTIFIER ::= { iso(1) member-body(2) us(840) rsadsi(113549) pkcs(1) pkcs-9(9) smime(16) alg(3) 8 }
cpa-zlibCompress AlgorithmIdentifier ::= { algorithm id-alg-zlibCompress }
END
