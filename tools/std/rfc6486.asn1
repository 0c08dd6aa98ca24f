-- RFC 6486, appendix A.
RPKIManifest DEFINITIONS EXPLICIT TAGS ::= BEGIN
id-smime OBJECT IDENTIFIER ::= { iso(1) member-body(2) us(840) rsadsi(113549) pkcs(1) pkcs9(9) smime(16) }
id-ct OBJECT IDENTIFIER ::= { id-smime 1 }
id-ct-rpkiManifest OBJECT IDENTIFIER ::= { id-ct 26 }
Manifest ::= SEQUENCE {
  version [0] INTEGER DEFAULT 0,
  manifestNumber INTEGER (0..MAX),
  thisUpdate GeneralizedTime,
  nextUpdate GeneralizedTime,
  fileHashAlg OBJECT IDENTIFIER,
  fileList SEQUENCE SIZE (0..MAX) OF FileAndHash }
FileAndHash ::= SEQUENCE {
  file IA5String,
  hash BIT STRING }
END
