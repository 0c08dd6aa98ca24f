-- RFC 5272 as updated by RFC 6402, appendix A; ChangeSubjectName left out.
EnrollmentMessageSyntax-2011-v88 DEFINITIONS IMPLICIT TAGS ::= BEGIN
IMPORTS AlgorithmIdentifier, Extension, Name, GeneralName, GeneralNames, ReasonFlags, CRLReason FROM rfc5280
  ContentInfo, Attribute, IssuerAndSerialNumber FROM rfc5652
  CertReqMsg, CertTemplate, PKIPublicationInfo FROM rfc4211;
id-pkix OBJECT IDENTIFIER ::= { iso(1) identified-organization(3) dod(6) internet(1) security(5) mechanisms(5) pkix(7) }
id-cmc OBJECT IDENTIFIER ::= { id-pkix 7 }
id-cct OBJECT IDENTIFIER ::= { id-pkix 12 }
id-cmc-statusInfo OBJECT IDENTIFIER ::= { id-cmc 1 }
id-cmc-identification OBJECT IDENTIFIER ::= { id-cmc 2 }
id-cmc-identityProof OBJECT IDENTIFIER ::= { id-cmc 3 }
id-cmc-dataReturn OBJECT IDENTIFIER ::= { id-cmc 4 }
id-cmc-transactionId OBJECT IDENTIFIER ::= { id-cmc 5 }
id-cmc-senderNonce OBJECT IDENTIFIER ::= { id-cmc 6 }
id-cmc-recipientNonce OBJECT IDENTIFIER ::= { id-cmc 7 }
id-cmc-addExtensions OBJECT IDENTIFIER ::= { id-cmc 8 }
id-cmc-encryptedPOP OBJECT IDENTIFIER ::= { id-cmc 9 }
id-cmc-decryptedPOP OBJECT IDENTIFIER ::= { id-cmc 10 }
id-cmc-lraPOPWitness OBJECT IDENTIFIER ::= { id-cmc 11 }
id-cmc-getCert OBJECT IDENTIFIER ::= { id-cmc 15 }
id-cmc-getCRL OBJECT IDENTIFIER ::= { id-cmc 16 }
id-cmc-revokeRequest OBJECT IDENTIFIER ::= { id-cmc 17 }
id-cmc-regInfo OBJECT IDENTIFIER ::= { id-cmc 18 }
id-cmc-responseInfo OBJECT IDENTIFIER ::= { id-cmc 19 }
id-cmc-queryPending OBJECT IDENTIFIER ::= { id-cmc 21 }
id-cmc-popLinkRandom OBJECT IDENTIFIER ::= { id-cmc 22 }
id-cmc-popLinkWitness OBJECT IDENTIFIER ::= { id-cmc 23 }
id-cmc-confirmCertAcceptance OBJECT IDENTIFIER ::= { id-cmc 24 }
id-cmc-statusInfoV2 OBJECT IDENTIFIER ::= { id-cmc 25 }
id-cmc-trustedAnchors OBJECT IDENTIFIER ::= { id-cmc 26 }
id-cmc-authData OBJECT IDENTIFIER ::= { id-cmc 27 }
id-cmc-batchRequests OBJECT IDENTIFIER ::= { id-cmc 28 }
id-cmc-batchResponses OBJECT IDENTIFIER ::= { id-cmc 29 }
id-cmc-publishCert OBJECT IDENTIFIER ::= { id-cmc 30 }
id-cmc-modCertTemplate OBJECT IDENTIFIER ::= { id-cmc 31 }
id-cmc-controlProcessed OBJECT IDENTIFIER ::= { id-cmc 32 }
id-cmc-popLinkWitnessV2 OBJECT IDENTIFIER ::= { id-cmc 33 }
id-cmc-identityProofV2 OBJECT IDENTIFIER ::= { id-cmc 34 }
id-cmc-raIdentityWitness OBJECT IDENTIFIER ::= { id-cmc 35 }
id-cmc-changeSubjectName OBJECT IDENTIFIER ::= { id-cmc 36 }
id-cmc-responseBody OBJECT IDENTIFIER ::= { id-cmc 37 }

id-cct-PKIData OBJECT IDENTIFIER ::= { id-cct 2 }
id-cct-PKIResponse OBJECT IDENTIFIER ::= { id-cct 3 }
id-kp-cmcCA OBJECT IDENTIFIER ::= { id-pkix kp(3) 27 }
id-kp-cmcRA OBJECT IDENTIFIER ::= { id-pkix kp(3) 28 }
id-ad-cmc OBJECT IDENTIFIER ::= { id-pkix ad(48) 12 }
id-alg-noSignature OBJECT IDENTIFIER ::= { id-pkix id-alg(6) 2 }
id-ExtensionReq OBJECT IDENTIFIER ::= { iso(1) member-body(2) us(840) rsadsi(113549) pkcs(1) pkcs-9(9) 14 }
id-aa OBJECT IDENTIFIER ::= { iso(1) member-body(2) us(840) rsadsi(113549) pkcs(1) pkcs9(9) smime(16) 2 }
id-aa-cmc-unsignedData OBJECT IDENTIFIER ::= { id-aa 34 }
AttributeValue ::= ANY
PKIData ::= SEQUENCE {
  controlSequence SEQUENCE SIZE (0..MAX) OF TaggedAttribute,
  reqSequence SEQUENCE SIZE (0..MAX) OF TaggedRequest,
  cmsSequence SEQUENCE SIZE (0..MAX) OF TaggedContentInfo,
  otherMsgSequence SEQUENCE SIZE (0..MAX) OF OtherMsg }
bodyIdMax INTEGER ::= 4294967295
BodyPartID ::= INTEGER (0..bodyIdMax)
TaggedAttribute ::= SEQUENCE {
  bodyPartID BodyPartID,
  attrType OBJECT IDENTIFIER,
  attrValues SET OF AttributeValue }
TaggedRequest ::= CHOICE {
  tcr [0] TaggedCertificationRequest,
  crm [1] CertReqMsg,
  orm [2] SEQUENCE {
    bodyPartID BodyPartID,
    requestMessageType OBJECT IDENTIFIER,
    requestMessageValue ANY DEFINED BY requestMessageType } }
TaggedCertificationRequest ::= SEQUENCE {
  bodyPartID BodyPartID,
  certificationRequest CertificationRequest }
CertificationRequest ::= SEQUENCE {
  certificationRequestInfo SEQUENCE {
    version INTEGER,
    subject Name,
    subjectPublicKeyInfo SEQUENCE {
      algorithm AlgorithmIdentifier,
      subjectPublicKey BIT STRING },
    attributes [0] IMPLICIT SET OF Attribute },
  signatureAlgorithm AlgorithmIdentifier,
  signature BIT STRING }
TaggedContentInfo ::= SEQUENCE {
  bodyPartID BodyPartID,
  contentInfo ContentInfo }
OtherMsg ::= SEQUENCE {
  bodyPartID BodyPartID,
  otherMsgType OBJECT IDENTIFIER,
  otherMsgValue ANY DEFINED BY otherMsgType }
ResponseBody ::= SEQUENCE {
  controlSequence SEQUENCE SIZE (0..MAX) OF TaggedAttribute,
  cmsSequence SEQUENCE SIZE (0..MAX) OF TaggedContentInfo,
  otherMsgSequence SEQUENCE SIZE (0..MAX) OF OtherMsg }
PKIResponse ::= ResponseBody
CMCStatusInfo ::= SEQUENCE {
  cMCStatus CMCStatus,
  bodyList SEQUENCE SIZE (1..MAX) OF BodyPartID,
  statusString UTF8String OPTIONAL,
  otherInfo CHOICE {
    failInfo CMCFailInfo,
    pendInfo PendInfo } OPTIONAL }
PendInfo ::= SEQUENCE {
  pendToken OCTET STRING,
  pendTime GeneralizedTime }
CMCStatus ::= INTEGER { success(0), failed(2), pending(3), noSupport(4), confirmRequired(5), popRequired(6), partial(7) }
CMCFailInfo ::= INTEGER { badAlg(0), badMessageCheck(1), badRequest(2), badTime(3), badCertId(4), unsupportedExt(5),
  mustArchiveKeys(6), badIdentity(7), popRequired(8), popFailed(9), noKeyReuse(10), internalCAError(11), tryLater(12),
  authDataFail(13) }
AddExtensions ::= SEQUENCE {
  pkiDataReference BodyPartID,
  certReferences SEQUENCE OF BodyPartID,
  extensions SEQUENCE OF Extension }
EncryptedPOP ::= SEQUENCE {
  request TaggedRequest,
  cms ContentInfo,
  thePOPAlgID AlgorithmIdentifier,
  witnessAlgID AlgorithmIdentifier,
  witness OCTET STRING }
DecryptedPOP ::= SEQUENCE {
  bodyPartID BodyPartID,
  thePOPAlgID AlgorithmIdentifier,
  thePOP OCTET STRING }
LraPopWitness ::= SEQUENCE {
  pkiDataBodyid BodyPartID,
  bodyIds SEQUENCE OF BodyPartID }
GetCert ::= SEQUENCE {
  issuerName GeneralName,
  serialNumber INTEGER }
GetCRL ::= SEQUENCE {
  issuerName Name,
  cRLName GeneralName OPTIONAL,
  time GeneralizedTime OPTIONAL,
  reasons ReasonFlags OPTIONAL }
RevokeRequest ::= SEQUENCE {
  issuerName Name,
  serialNumber INTEGER,
  reason CRLReason,
  invalidityDate GeneralizedTime OPTIONAL,
  passphrase OCTET STRING OPTIONAL,
  comment UTF8String OPTIONAL }
CMCCertId ::= IssuerAndSerialNumber
ExtensionReq ::= SEQUENCE SIZE (1..MAX) OF Extension
NoSignatureValue ::= OCTET STRING
CMCUnsignedData ::= SEQUENCE {
  bodyPartPath BodyPartPath,
  identifier OBJECT IDENTIFIER,
  content ANY DEFINED BY identifier }
CMCStatusInfoV2 ::= SEQUENCE {
  cMCStatus CMCStatus,
  bodyList SEQUENCE SIZE (1..MAX) OF BodyPartReference,
  statusString UTF8String OPTIONAL,
  otherInfo CHOICE {
    failInfo CMCFailInfo,
    pendInfo PendInfo,
    extendedFailInfo [1] SEQUENCE {
      failInfoOID OBJECT IDENTIFIER,
      failInfoValue AttributeValue } } OPTIONAL }
BodyPartReference ::= CHOICE {
  bodyPartID BodyPartID,
  bodyPartPath BodyPartPath }
BodyPartPath ::= SEQUENCE SIZE (1..MAX) OF BodyPartID
PublishTrustAnchors ::= SEQUENCE {
  seqNumber INTEGER,
  hashAlgorithm AlgorithmIdentifier,
  anchorHashes SEQUENCE OF OCTET STRING }
AuthPublish ::= BodyPartID
BodyPartList ::= SEQUENCE SIZE (1..MAX) OF BodyPartID
CMCPublicationInfo ::= SEQUENCE {
  hashAlg AlgorithmIdentifier,
  certHashes SEQUENCE OF OCTET STRING,
  pubInfo PKIPublicationInfo }
ModCertTemplate ::= SEQUENCE {
  pkiDataReference BodyPartPath,
  certReferences BodyPartList,
  replace BOOLEAN DEFAULT TRUE,
  certTemplate CertTemplate }
ControlsProcessed ::= SEQUENCE {
  bodyList SEQUENCE SIZE (1..MAX) OF BodyPartReference }
IdentifyProofV2 ::= SEQUENCE {
  proofAlgID AlgorithmIdentifier,
  macAlgId AlgorithmIdentifier,
  witness OCTET STRING }
PopLinkWitnessV2 ::= SEQUENCE {
  keyGenAlgorithm AlgorithmIdentifier,
  macAlgorithm AlgorithmIdentifier,
  witness OCTET STRING }
END
