PKIXAttributeCertificate-2008 DEFINITIONS IMPLICIT TAGS ::= BEGIN
ContentInfo ::= rfc5652.ContentInfo
SecurityCategory ::= SEQUENCE {
  type [0] IMPLICIT OBJECT IDENTIFIER,
  value [1] PRIMITIVE ANY DEFINED BY type }
Clearance-rfc3281 ::= SEQUENCE {
  policyId [0] IMPLICIT OBJECT IDENTIFIER,
  classList [1] IMPLICIT ClassList DEFAULT { unclassified },
  securityCategories [2] IMPLICIT SET OF SecurityCategory OPTIONAL }
END
