-- RFC 5275.
SMIMESymmetricKeyDistribution DEFINITIONS IMPLICIT TAGS ::= BEGIN
IMPORTS AlgorithmIdentifier, Certificate, GeneralName FROM rfc5280
  CertificateSet, KEKIdentifier, RecipientInfos FROM rfc5652
  SMIMECapability, SMIMECapabilities FROM rfc5751
  AttributeCertificate FROM rfc5755;
id-skd OBJECT IDENTIFIER ::= { iso(1) member-body(2) us(840) rsadsi(113549) pkcs(1) pkcs9(9) smime(16) skd(8) }
id-skd-glUseKEK OBJECT IDENTIFIER ::= { id-skd 1 }
GLUseKEK ::= SEQUENCE {
  glInfo GLInfo,
  glOwnerInfo SEQUENCE SIZE (1..MAX) OF GLOwnerInfo,
  glAdministration GLAdministration DEFAULT managed,
  glKeyAttributes GLKeyAttributes OPTIONAL }
GLInfo ::= SEQUENCE {
  glName GeneralName,
  glAddress GeneralName }
GLOwnerInfo ::= SEQUENCE {
  glOwnerName GeneralName,
  glOwnerAddress GeneralName,
  certificates Certificates OPTIONAL }
GLAdministration ::= INTEGER { unmanaged(0), managed(1), closed(2) }
GLKeyAttributes ::= SEQUENCE {
  rekeyControlledByGLO [0] BOOLEAN DEFAULT FALSE,
  recipientsNotMutuallyAware [1] BOOLEAN DEFAULT TRUE,
  duration [2] INTEGER DEFAULT 0,
  generationCounter [3] INTEGER DEFAULT 2,
  requestedAlgorithm [4] SMIMECapability DEFAULT { capabilityID id-aes128-wrap } }
id-aes128-wrap OBJECT IDENTIFIER ::= { joint-iso-itu-t(2) country(16) us(840) organization(1) gov(101) csor(3) nistAlgorithm(4) aes(1) 5 }
id-skd-glDelete OBJECT IDENTIFIER ::= { id-skd 2 }
DeleteGL ::= GeneralName
id-skd-glAddMember OBJECT IDENTIFIER ::= { id-skd 3 }
GLAddMember ::= SEQUENCE {
  glName GeneralName,
  glMember GLMember }
GLMember ::= SEQUENCE {
  glMemberName GeneralName,
  glMemberAddress GeneralName OPTIONAL,
  certificates Certificates OPTIONAL }
Certificates ::= SEQUENCE {
  pKC [0] Certificate OPTIONAL,
  aC [1] SEQUENCE SIZE (1..MAX) OF AttributeCertificate OPTIONAL,
  certPath [2] CertificateSet OPTIONAL }
id-skd-glDeleteMember OBJECT IDENTIFIER ::= { id-skd 4 }
GLDeleteMember ::= SEQUENCE {
  glName GeneralName,
  glMemberToDelete GeneralName }
id-skd-glRekey OBJECT IDENTIFIER ::= { id-skd 5 }
GLRekey ::= SEQUENCE {
  glName GeneralName,
  glAdministration GLAdministration OPTIONAL,
  glNewKeyAttributes GLNewKeyAttributes OPTIONAL,
  glRekeyAllGLKeys BOOLEAN OPTIONAL }
GLNewKeyAttributes ::= SEQUENCE {
  rekeyControlledByGLO [0] BOOLEAN OPTIONAL,
  recipientsNotMutuallyAware [1] BOOLEAN OPTIONAL,
  duration [2] INTEGER OPTIONAL,
  generationCounter [3] INTEGER OPTIONAL,
  requestedAlgorithm [4] AlgorithmIdentifier OPTIONAL }
id-skd-glAddOwner OBJECT IDENTIFIER ::= { id-skd 6 }
id-skd-glRemoveOwner OBJECT IDENTIFIER ::= { id-skd 7 }
GLOwnerAdministration ::= SEQUENCE {
  glName GeneralName,
  glOwnerInfo GLOwnerInfo }
id-skd-glKeyCompromise OBJECT IDENTIFIER ::= { id-skd 8 }
GLKCompromise ::= GeneralName
id-skd-glkRefresh OBJECT IDENTIFIER ::= { id-skd 9 }
GLKRefresh ::= SEQUENCE {
  glName GeneralName,
  dates SEQUENCE SIZE (1..MAX) OF Date }
Date ::= SEQUENCE {
  start GeneralizedTime,
  end GeneralizedTime OPTIONAL }
id-skd-glaQueryRequest OBJECT IDENTIFIER ::= { id-skd 11 }
GLAQueryRequest ::= SEQUENCE {
  glaRequestType OBJECT IDENTIFIER,
  glaRequestValue ANY DEFINED BY glaRequestType }
id-skd-glaQueryResponse OBJECT IDENTIFIER ::= { id-skd 12 }
GLAQueryResponse ::= SEQUENCE {
  glaResponseType OBJECT IDENTIFIER,
  glaResponseValue ANY DEFINED BY glaResponseType }
id-cmc-glaRR OBJECT IDENTIFIER ::= { iso(1) identified-organization(3) dod(6) internet(1) security(5) mechanisms(5) pkix(7) cmc(7) glaRR(99) }
id-cmc-gla-skdAlgRequest OBJECT IDENTIFIER ::= { id-cmc-glaRR 1 }
SKDAlgRequest ::= NULL
id-cmc-gla-skdAlgResponse OBJECT IDENTIFIER ::= { id-cmc-glaRR 2 }
id-skd-glProvideCert OBJECT IDENTIFIER ::= { id-skd 13 }
GLManageCert ::= SEQUENCE {
  glName GeneralName,
  glMember GLMember }
id-skd-glManageCert OBJECT IDENTIFIER ::= { id-skd 14 }
id-skd-glKey OBJECT IDENTIFIER ::= { id-skd 15 }
GLKey ::= SEQUENCE {
  glName GeneralName,
  glIdentifier KEKIdentifier,
  glkWrapped RecipientInfos,
  glkAlgorithm AlgorithmIdentifier,
  glkNotBefore GeneralizedTime,
  glkNotAfter GeneralizedTime }
id-cet-skdFailInfo OBJECT IDENTIFIER ::= { iso(1) identified-organization(3) dod(6) internet(1) security(5) mechanisms(5) pkix(7) cet(15) 1 }
SKDFailInfo ::= INTEGER { unspecified(0), closedGL(1), unsupportedDuration(2), noGLACertificate(3), invalidCert(4),
  unsupportedAlgorithm(5), noGLONameMatch(6), invalidGLName(7), nameAlreadyInUse(8), noSpam(9),
  alreadyAMember(11), notAMember(12), alreadyAnOwner(13), notAnOwner(14) }
END
