-- RFC 4210, appendix F.  Nested messages are recursive; for them the package's class is used (see C45).
PKIXCMP DEFINITIONS EXPLICIT TAGS ::= BEGIN
IMPORTS Certificate, CertificateList, Extensions, AlgorithmIdentifier, GeneralName, KeyIdentifier FROM rfc3280
  CertTemplate, PKIPublicationInfo, EncryptedValue, CertId, CertReqMessages FROM rfc4211 CertificationRequest FROM rfc2986
  NestedMessageContent FROM package;
CMPCertificate ::= CHOICE { x509v3PKCert Certificate }
PKIHeader ::= SEQUENCE {
  pvno INTEGER { cmp1999(1), cmp2000(2) },
  sender GeneralName,
  recipient GeneralName,
  messageTime [0] GeneralizedTime OPTIONAL,
  protectionAlg [1] AlgorithmIdentifier OPTIONAL,
  senderKID [2] KeyIdentifier OPTIONAL,
  recipKID [3] KeyIdentifier OPTIONAL,
  transactionID [4] OCTET STRING OPTIONAL,
  senderNonce [5] OCTET STRING OPTIONAL,
  recipNonce [6] OCTET STRING OPTIONAL,
  freeText [7] PKIFreeText OPTIONAL,
  generalInfo [8] SEQUENCE SIZE (1..MAX) OF InfoTypeAndValue OPTIONAL }
PKIFreeText ::= SEQUENCE SIZE (1..MAX) OF UTF8String
PKIProtection ::= BIT STRING
PBMParameter ::= SEQUENCE {
  salt OCTET STRING,
  owf AlgorithmIdentifier,
  iterationCount INTEGER,
  mac AlgorithmIdentifier }
DHBMParameter ::= SEQUENCE {
  owf AlgorithmIdentifier,
  mac AlgorithmIdentifier }
PKIStatus ::= INTEGER { accepted(0), grantedWithMods(1), rejection(2), waiting(3), revocationWarning(4),
  revocationNotification(5), keyUpdateWarning(6) }
PKIFailureInfo ::= BIT STRING { badAlg(0), badMessageCheck(1), badRequest(2), badTime(3), badCertId(4),
  badDataFormat(5), wrongAuthority(6), incorrectData(7), missingTimeStamp(8), badPOP(9), certRevoked(10),
  certConfirmed(11), wrongIntegrity(12), badRecipientNonce(13), timeNotAvailable(14), unacceptedPolicy(15),
  unacceptedExtension(16), addInfoNotAvailable(17), badSenderNonce(18), badCertTemplate(19), signerNotTrusted(20),
  transactionIdInUse(21), unsupportedVersion(22), notAuthorized(23), systemUnavail(24), systemFailure(25),
  duplicateCertReq(26) }
PKIStatusInfo ::= SEQUENCE {
  status PKIStatus,
  statusString PKIFreeText OPTIONAL,
  failInfo PKIFailureInfo OPTIONAL }
OOBCert ::= CMPCertificate
OOBCertHash ::= SEQUENCE {
  hashAlg [0] AlgorithmIdentifier OPTIONAL,
  certId [1] CertId OPTIONAL,
  hashVal BIT STRING }
POPODecKeyChallContent ::= SEQUENCE OF Challenge
Challenge ::= SEQUENCE {
  owf AlgorithmIdentifier OPTIONAL,
  witness OCTET STRING,
  challenge OCTET STRING }
POPODecKeyRespContent ::= SEQUENCE OF INTEGER
CertRepMessage ::= SEQUENCE {
  caPubs [1] SEQUENCE SIZE (1..MAX) OF CMPCertificate OPTIONAL,
  response SEQUENCE OF CertResponse }
CertResponse ::= SEQUENCE {
  certReqId INTEGER,
  status PKIStatusInfo,
  certifiedKeyPair CertifiedKeyPair OPTIONAL,
  rspInfo OCTET STRING OPTIONAL }
CertifiedKeyPair ::= SEQUENCE {
  certOrEncCert CertOrEncCert,
  privateKey [0] EncryptedValue OPTIONAL,
  publicationInfo [1] PKIPublicationInfo OPTIONAL }
CertOrEncCert ::= CHOICE {
  certificate [0] CMPCertificate,
  encryptedCert [1] EncryptedValue }
KeyRecRepContent ::= SEQUENCE {
  status PKIStatusInfo,
  newSigCert [0] CMPCertificate OPTIONAL,
  caCerts [1] SEQUENCE SIZE (1..MAX) OF CMPCertificate OPTIONAL,
  keyPairHist [2] SEQUENCE SIZE (1..MAX) OF CertifiedKeyPair OPTIONAL }
RevReqContent ::= SEQUENCE OF RevDetails
RevDetails ::= SEQUENCE {
  certDetails CertTemplate,
  crlEntryDetails Extensions OPTIONAL }
RevRepContent ::= SEQUENCE {
  status SEQUENCE SIZE (1..MAX) OF PKIStatusInfo,
  revCerts [0] SEQUENCE SIZE (1..MAX) OF CertId OPTIONAL,
  crls [1] SEQUENCE SIZE (1..MAX) OF CertificateList OPTIONAL }
CAKeyUpdAnnContent ::= SEQUENCE {
  oldWithNew CMPCertificate,
  newWithOld CMPCertificate,
  newWithNew CMPCertificate }
CertAnnContent ::= CMPCertificate
RevAnnContent ::= SEQUENCE {
  status PKIStatus,
  certId CertId,
  willBeRevokedAt GeneralizedTime,
  badSinceDate GeneralizedTime,
  crlDetails Extensions OPTIONAL }
CRLAnnContent ::= SEQUENCE OF CertificateList
CertConfirmContent ::= SEQUENCE OF CertStatus
CertStatus ::= SEQUENCE {
  certHash OCTET STRING,
  certReqId INTEGER,
  statusInfo PKIStatusInfo OPTIONAL }
PKIConfirmContent ::= NULL
InfoTypeAndValue ::= SEQUENCE {
  infoType OBJECT IDENTIFIER,
  infoValue ANY DEFINED BY infoType OPTIONAL }
GenMsgContent ::= SEQUENCE OF InfoTypeAndValue
GenRepContent ::= SEQUENCE OF InfoTypeAndValue
ErrorMsgContent ::= SEQUENCE {
  pKIStatusInfo PKIStatusInfo,
  errorCode INTEGER OPTIONAL,
  errorDetails PKIFreeText OPTIONAL }
PollReqContent ::= SEQUENCE OF SEQUENCE { certReqId INTEGER }
PollRepContent ::= SEQUENCE OF SEQUENCE {
  certReqId INTEGER,
  checkAfter INTEGER,
  reason PKIFreeText OPTIONAL }
id-PasswordBasedMac OBJECT IDENTIFIER ::= { iso(1) member-body(2) us(840) nt(113533) nsn(7) algorithms(66) 13 }
id-DHBasedMac OBJECT IDENTIFIER ::= { iso(1) member-body(2) us(840) nt(113533) nsn(7) algorithms(66) 30 }
PKIBody ::= CHOICE {
  ir [0] CertReqMessages,
  ip [1] CertRepMessage,
  cr [2] CertReqMessages,
  cp [3] CertRepMessage,
  p10cr [4] CertificationRequest,
  popdecc [5] POPODecKeyChallContent,
  popdecr [6] POPODecKeyRespContent,
  kur [7] CertReqMessages,
  kup [8] CertRepMessage,
  krr [9] CertReqMessages,
  krp [10] KeyRecRepContent,
  rr [11] RevReqContent,
  rp [12] RevRepContent,
  ccr [13] CertReqMessages,
  ccp [14] CertRepMessage,
  ckuann [15] CAKeyUpdAnnContent,
  cann [16] CertAnnContent,
  rann [17] RevAnnContent,
  crlann [18] CRLAnnContent,
  pkiconf [19] PKIConfirmContent,
  nested [20] NestedMessageContent,
  genm [21] GenMsgContent,
  genp [22] GenRepContent,
  error [23] ErrorMsgContent,
  certConf [24] CertConfirmContent,
  pollReq [25] PollReqContent,
  pollRep [26] PollRepContent }
ProtectedPart ::= SEQUENCE {
  header PKIHeader,
  body PKIBody }
PKIMessage ::= SEQUENCE {
  header PKIHeader,
  body PKIBody,
  protection [0] PKIProtection OPTIONAL,
  extraCerts [1] SEQUENCE SIZE (1..MAX) OF CMPCertificate OPTIONAL }
PKIMessages ::= SEQUENCE SIZE (1..MAX) OF PKIMessage
END
