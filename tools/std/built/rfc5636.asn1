-- No standard beside it in tools/std.
TAC DEFINITIONS EXPLICIT TAGS ::= BEGIN
IMPORTS ContentInfo, EncapsulatedContentInfo FROM rfc5652;
UserKey ::= OCTET STRING
Timeout ::= GeneralizedTime
BlinedCertificateHash ::= OCTET STRING
PartiallySignedCertificateHash ::= OCTET STRING
Token ::= ContentInfo
TokenandBlindHash ::= ContentInfo
TokenandPartiallySignedCertificateHash ::= ContentInfo
TACToken ::= SEQUENCE {
  userKey UserKey,
  timeout Timeout }
TACTokenandBlindHash ::= SEQUENCE {
  token Token,
  blinded BlinedCertificateHash }
TACTokenandPartiallySignedCertificateHash ::= SEQUENCE {
  token Token,
  partially PartiallySignedCertificateHash }
END
