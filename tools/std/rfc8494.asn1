-- RFC 8494.
MMHS-CompressedData DEFINITIONS EXPLICIT TAGS ::= BEGIN
id-mmhs-CDT OBJECT IDENTIFIER ::= { iso(1) identified-organization(3) nato(26) stanags(0) mmhs(4406) object-ids(0) id-mcont(4) 2 }
CompressedData ::= SEQUENCE {
  compressionAlgorithm CompressionAlgorithmIdentifier,
  compressedContentInfo CompressedContentInfo }
CompressionAlgorithmIdentifier ::= CHOICE {
  algorithmID-ShortForm [0] AlgorithmID-ShortForm,
  algorithmID-OID [1] OBJECT IDENTIFIER }
AlgorithmID-ShortForm ::= INTEGER { zlibCompress(0) }
CompressedContentInfo ::= SEQUENCE {
  unnamed CHOICE {
    contentType-ShortForm [0] ContentType-ShortForm,
    contentType-OID [1] OBJECT IDENTIFIER },
  compressedContent [0] EXPLICIT OCTET STRING }
ContentType-ShortForm ::= INTEGER { unidentified(0), external(1), p1(2), p3(3), p7(4), mule(25) }
END
