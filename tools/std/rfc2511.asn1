-- RFC 2511, appendix B.
PKIXCRMF DEFINITIONS IMPLICIT TAGS ::= BEGIN
IMPORTS AlgorithmIdentifier, Name, Extensions, UniqueIdentifier, SubjectPublicKeyInfo, Version, Time, GeneralName,
  AttributeTypeAndValue, id-pkix FROM rfc2459 EnvelopedData FROM rfc2315;
id-pkip OBJECT IDENTIFIER ::= { id-pkix 5 }
CertReqMessages ::= SEQUENCE SIZE (1..MAX) OF CertReqMsg
CertReqMsg ::= SEQUENCE {
  certReq CertRequest,
  popo ProofOfPossession OPTIONAL,
  regInfo SEQUENCE SIZE (1..MAX) OF AttributeTypeAndValue OPTIONAL }
CertRequest ::= SEQUENCE {
  certReqId INTEGER,
  certTemplate CertTemplate,
  controls Controls OPTIONAL }
CertTemplate ::= SEQUENCE {
  version [0] Version OPTIONAL,
  serialNumber [1] INTEGER OPTIONAL,
  signingAlg [2] AlgorithmIdentifier OPTIONAL,
  issuer [3] Name OPTIONAL,
  validity [4] OptionalValidity OPTIONAL,
  subject [5] Name OPTIONAL,
  publicKey [6] SubjectPublicKeyInfo OPTIONAL,
  issuerUID [7] UniqueIdentifier OPTIONAL,
  subjectUID [8] UniqueIdentifier OPTIONAL,
  extensions [9] Extensions OPTIONAL }
OptionalValidity ::= SEQUENCE {
  notBefore [0] Time OPTIONAL,
  notAfter [1] Time OPTIONAL }
Controls ::= SEQUENCE SIZE (1..MAX) OF AttributeTypeAndValue
ProofOfPossession ::= CHOICE {
  raVerified [0] NULL,
  signature [1] POPOSigningKey,
  keyEncipherment [2] POPOPrivKey,
  keyAgreement [3] POPOPrivKey }
POPOSigningKey ::= SEQUENCE {
  poposkInput [0] POPOSigningKeyInput OPTIONAL,
  algorithmIdentifier AlgorithmIdentifier,
  signature BIT STRING }
POPOSigningKeyInput ::= SEQUENCE {
  authInfo CHOICE {
    sender [0] GeneralName,
    publicKeyMAC PKMACValue },
  publicKey SubjectPublicKeyInfo }
PKMACValue ::= SEQUENCE {
  algId AlgorithmIdentifier,
  value BIT STRING }
PBMParameter ::= SEQUENCE {
  salt OCTET STRING,
  owf AlgorithmIdentifier,
  iterationCount INTEGER,
  mac AlgorithmIdentifier }
DHBMParameter ::= SEQUENCE {
  owf AlgorithmIdentifier,
  mac AlgorithmIdentifier }
POPOPrivKey ::= CHOICE {
  thisMessage [0] BIT STRING,
  subsequentMessage [1] SubsequentMessage,
  dhMAC [2] BIT STRING }
SubsequentMessage ::= INTEGER { encrCert(0), challengeResp(1) }
id-regCtrl OBJECT IDENTIFIER ::= { id-pkip 1 }
id-regCtrl-regToken OBJECT IDENTIFIER ::= { id-regCtrl 1 }
RegToken ::= UTF8String
id-regCtrl-authenticator OBJECT IDENTIFIER ::= { id-regCtrl 2 }
Authenticator ::= UTF8String
id-regCtrl-pkiPublicationInfo OBJECT IDENTIFIER ::= { id-regCtrl 3 }
PKIPublicationInfo ::= SEQUENCE {
  action INTEGER { dontPublish(0), pleasePublish(1) },
  pubInfos SEQUENCE SIZE (1..MAX) OF SinglePubInfo OPTIONAL }
SinglePubInfo ::= SEQUENCE {
  pubMethod INTEGER { dontCare(0), x500(1), web(2), ldap(3) },
  pubLocation GeneralName OPTIONAL }
id-regCtrl-pkiArchiveOptions OBJECT IDENTIFIER ::= { id-regCtrl 4 }
PKIArchiveOptions ::= CHOICE {
  encryptedPrivKey [0] EncryptedKey,
  keyGenParameters [1] KeyGenParameters,
  archiveRemGenPrivKey [2] BOOLEAN }
EncryptedKey ::= CHOICE {
  encryptedValue EncryptedValue,
  envelopedData [0] EnvelopedData }
EncryptedValue ::= SEQUENCE {
  intendedAlg [0] AlgorithmIdentifier OPTIONAL,
  symmAlg [1] AlgorithmIdentifier OPTIONAL,
  encSymmKey [2] BIT STRING OPTIONAL,
  keyAlg [3] AlgorithmIdentifier OPTIONAL,
  valueHint [4] OCTET STRING OPTIONAL,
  encValue BIT STRING }
KeyGenParameters ::= OCTET STRING
id-regCtrl-oldCertID OBJECT IDENTIFIER ::= { id-regCtrl 5 }
OldCertId ::= CertId
CertId ::= SEQUENCE {
  issuer GeneralName,
  serialNumber INTEGER }
id-regCtrl-protocolEncrKey OBJECT IDENTIFIER ::= { id-regCtrl 6 }
ProtocolEncrKey ::= SubjectPublicKeyInfo
id-regInfo OBJECT IDENTIFIER ::= { id-pkip 2 }
id-regInfo-utf8Pairs OBJECT IDENTIFIER ::= { id-regInfo 1 }
UTF8Pairs ::= UTF8String
id-regInfo-certReq OBJECT IDENTIFIER ::= { id-regInfo 2 }
CertReq ::= CertRequest
END
