-- RFC 3161, appendix (module PKIXTSP).
PKIXTSP DEFINITIONS IMPLICIT TAGS ::= BEGIN
IMPORTS Extensions, AlgorithmIdentifier, GeneralName FROM rfc5280 ContentInfo FROM rfc5652 PKIFreeText FROM rfc4210;
id-ct-TSTInfo OBJECT IDENTIFIER ::= { iso(1) member-body(2) us(840) rsadsi(113549) pkcs(1) pkcs-9(9) smime(16) ct(1) 4 }
TimeStampReq ::= SEQUENCE {
  version INTEGER { v1(1) },
  messageImprint MessageImprint,
  reqPolicy TSAPolicyId OPTIONAL,
  nonce INTEGER OPTIONAL,
  certReq BOOLEAN DEFAULT FALSE,
  extensions [0] IMPLICIT Extensions OPTIONAL }
MessageImprint ::= SEQUENCE {
  hashAlgorithm AlgorithmIdentifier,
  hashedMessage OCTET STRING }
TSAPolicyId ::= OBJECT IDENTIFIER
TimeStampResp ::= SEQUENCE {
  status PKIStatusInfo,
  timeStampToken TimeStampToken OPTIONAL }
PKIStatusInfo ::= SEQUENCE {
  status PKIStatus,
  statusString PKIFreeText OPTIONAL,
  failInfo PKIFailureInfo OPTIONAL }
PKIStatus ::= INTEGER { granted(0), grantedWithMods(1), rejection(2), waiting(3), revocationWarning(4),
  revocationNotification(5) }
PKIFailureInfo ::= BIT STRING { badAlg(0), badRequest(2), badDataFormat(5), timeNotAvailable(14),
  unacceptedPolicy(15), unacceptedExtension(16), addInfoNotAvailable(17), systemFailure(25) }
TimeStampToken ::= ContentInfo
TSTInfo ::= SEQUENCE {
  version INTEGER { v1(1) },
  policy TSAPolicyId,
  messageImprint MessageImprint,
  serialNumber INTEGER,
  genTime GeneralizedTime,
  accuracy Accuracy OPTIONAL,
  ordering BOOLEAN DEFAULT FALSE,
  nonce INTEGER OPTIONAL,
  tsa [0] GeneralName OPTIONAL,
  extensions [1] IMPLICIT Extensions OPTIONAL }
Accuracy ::= SEQUENCE {
  seconds INTEGER OPTIONAL,
  millis [0] INTEGER (1..999) OPTIONAL,
  micros [1] INTEGER (1..999) OPTIONAL }
END
