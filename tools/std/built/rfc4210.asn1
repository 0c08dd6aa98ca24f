-- Built on RFC 2459, RFC 2511 and RFC 2314; nested messages are not looked into.
PKIXCMP DEFINITIONS EXPLICIT TAGS ::= BEGIN
IMPORTS Certificate, CertificateList, Extensions, AlgorithmIdentifier, GeneralName, KeyIdentifier FROM rfc2459
  CertTemplate, PKIPublicationInfo, EncryptedValue, CertId, CertReqMessages FROM rfc2511
  CertificationRequest FROM rfc2314;
CMPCertificate ::= Certificate
PollRepContent-CertReq ::= SEQUENCE {
  certReqId INTEGER,
  checkAfter INTEGER,
  reason PKIFreeText OPTIONAL }
PollReqContent-CertReq ::= SEQUENCE { certReqId INTEGER }
NestedMessageContent ::= SEQUENCE OF ANY
PBMParameter ::= SEQUENCE {
  salt OCTET STRING (SIZE (0..128)),
  owf AlgorithmIdentifier,
  iterationCount INTEGER,
  mac AlgorithmIdentifier }
PKIHeader ::= SEQUENCE {
  pvno INTEGER { cmp1999(1), cmp2000(2) },
  sender GeneralName,
  recipient GeneralName,
  messageTime [0] GeneralizedTime OPTIONAL,
  protectionAlg [1] AlgorithmIdentifier OPTIONAL,
  senderKID [2] KeyIdentifier OPTIONAL,
  recipKID [3] KeyIdentifier OPTIONAL,
  transactionID [4] OCTET STRING OPTIONAL,
  senderNonce [5] OCTET STRING OPTIONAL,
  recipNonce [6] OCTET STRING OPTIONAL,
  freeText [7] PKIFreeText OPTIONAL,
  generalInfo [8] SEQUENCE OF InfoTypeAndValue (SIZE (1..MAX)) OPTIONAL }
PKIBody ::= CHOICE {
  ir [0] CertReqMessages,
  ip [1] CertRepMessage,
  cr [2] CertReqMessages,
  cp [3] CertRepMessage,
  p10cr [4] CertificationRequest,
  popdecc [5] POPODecKeyChallContent,
  popdecr [6] POPODecKeyRespContent,
  kur [7] CertReqMessages,
  kup [8] CertRepMessage,
  krr [9] CertReqMessages,
  krp [10] KeyRecRepContent,
  rr [11] RevReqContent,
  rp [12] RevRepContent,
  ccr [13] CertReqMessages,
  ccp [14] CertRepMessage,
  ckuann [15] CAKeyUpdAnnContent,
  cann [16] CertAnnContent,
  rann [17] RevAnnContent,
  crlann [18] CRLAnnContent,
  pkiconf [19] PKIConfirmContent,
  nested [20] NestedMessageContent,
  genm [21] GenMsgContent,
  gen [22] GenRepContent,
  error [23] ErrorMsgContent,
  certConf [24] CertConfirmContent,
  pollReq [25] PollReqContent,
  pollRep [26] PollRepContent }
ProtectedPart ::= SEQUENCE {
  header PKIHeader,
  infoValue PKIBody }
END
