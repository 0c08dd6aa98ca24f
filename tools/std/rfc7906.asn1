-- RFC 7906.
KMAttributes2012 DEFINITIONS IMPLICIT TAGS ::= BEGIN
IMPORTS ContentHints, SecurityPolicyIdentifier, SecurityClassification, ESSPrivacyMark, SecurityCategories, ESSSecurityLabel FROM rfc2634
  CommunityIdentifier, CommunityIdentifiers, id-aa-communityIdentifiers FROM rfc4108
  AlgorithmIdentifier, Certificate, Name, GeneralName, GeneralNames, SubjectInfoAccessSyntax, id-pkix, id-pe, id-pe-subjectInfoAccess FROM rfc5280
  CMSContentConstraints FROM rfc6010
  BinaryTime, BinarySigningTime, id-aa-binarySigningTime FROM rfc6019
  ContentDecryptKeyID, id-aa-KP-contentDecryptKeyID FROM rfc6032
  Attribute, CertificateSet, CertificateChoices, ContentType, MessageDigest, id-contentType, id-messageDigest FROM rfc5652
  SIREntityName, KeyPkgIdentifierAndReceiptReq, id-aa-KP-keyPkgIdAndReceiptReq FROM rfc7191;
id-aa-KP-keyProvinceV2 OBJECT IDENTIFIER ::= { joint-iso-itu-t(2) country(16) us(840) organization(1) gov(101) dod(2) infosec(1) attributes(5) 71 }
id-aa-KP-manifest OBJECT IDENTIFIER ::= { joint-iso-itu-t(2) country(16) us(840) organization(1) gov(101) dod(2) infosec(1) attributes(5) 72 }
id-aa-KP-crlPointers OBJECT IDENTIFIER ::= { joint-iso-itu-t(2) country(16) us(840) organization(1) gov(101) dod(2) infosec(1) attributes(5) 70 }
id-kma-keyAlgorithm OBJECT IDENTIFIER ::= { joint-iso-itu-t(2) country(16) us(840) organization(1) gov(101) dod(2) infosec(1) keying-material-attributes(13) 1 }
id-kma-TSECNomenclature OBJECT IDENTIFIER ::= { joint-iso-itu-t(2) country(16) us(840) organization(1) gov(101) dod(2) infosec(1) keying-material-attributes(13) 3 }
id-kma-keyDistPeriod OBJECT IDENTIFIER ::= { joint-iso-itu-t(2) country(16) us(840) organization(1) gov(101) dod(2) infosec(1) keying-material-attributes(13) 5 }
id-kma-keyValidityPeriod OBJECT IDENTIFIER ::= { joint-iso-itu-t(2) country(16) us(840) organization(1) gov(101) dod(2) infosec(1) keying-material-attributes(13) 6 }
id-kma-keyDuration OBJECT IDENTIFIER ::= { joint-iso-itu-t(2) country(16) us(840) organization(1) gov(101) dod(2) infosec(1) keying-material-attributes(13) 7 }
id-kma-splitID OBJECT IDENTIFIER ::= { joint-iso-itu-t(2) country(16) us(840) organization(1) gov(101) dod(2) infosec(1) keying-material-attributes(13) 11 }
id-kma-keyPkgType OBJECT IDENTIFIER ::= { joint-iso-itu-t(2) country(16) us(840) organization(1) gov(101) dod(2) infosec(1) keying-material-attributes(13) 12 }
id-kma-keyPurpose OBJECT IDENTIFIER ::= { joint-iso-itu-t(2) country(16) us(840) organization(1) gov(101) dod(2) infosec(1) keying-material-attributes(13) 13 }
id-kma-keyUse OBJECT IDENTIFIER ::= { joint-iso-itu-t(2) country(16) us(840) organization(1) gov(101) dod(2) infosec(1) keying-material-attributes(13) 14 }
id-kma-transportKey OBJECT IDENTIFIER ::= { joint-iso-itu-t(2) country(16) us(840) organization(1) gov(101) dod(2) infosec(1) keying-material-attributes(13) 15 }
id-kma-keyPkgReceiversV2 OBJECT IDENTIFIER ::= { joint-iso-itu-t(2) country(16) us(840) organization(1) gov(101) dod(2) infosec(1) keying-material-attributes(13) 16 }
id-kma-otherCertFormats OBJECT IDENTIFIER ::= { joint-iso-itu-t(2) country(16) us(840) organization(1) gov(101) dod(2) infosec(1) keying-material-attributes(13) 19 }
id-kma-usefulCerts OBJECT IDENTIFIER ::= { joint-iso-itu-t(2) country(16) us(840) organization(1) gov(101) dod(2) infosec(1) keying-material-attributes(13) 20 }
id-kma-keyWrapAlgorithm OBJECT IDENTIFIER ::= { joint-iso-itu-t(2) country(16) us(840) organization(1) gov(101) dod(2) infosec(1) keying-material-attributes(13) 21 }
id-kma-sigUsageV3 OBJECT IDENTIFIER ::= { joint-iso-itu-t(2) country(16) us(840) organization(1) gov(101) dod(2) infosec(1) keying-material-attributes(13) 22 }
id-at-userCertificate OBJECT IDENTIFIER ::= { joint-iso-itu-t(2) ds(5) attributeType(4) 36 }
id-at-pkiPath OBJECT IDENTIFIER ::= { joint-iso-itu-t(2) ds(5) attributeType(4) 70 }
KeyProvinceV2 ::= OBJECT IDENTIFIER
ShortTitle ::= PrintableString
Manifest ::= SEQUENCE SIZE (1..MAX) OF ShortTitle
KeyAlgorithm ::= SEQUENCE {
  keyAlg OBJECT IDENTIFIER,
  checkWordAlg [1] OBJECT IDENTIFIER OPTIONAL,
  crcAlg [2] OBJECT IDENTIFIER OPTIONAL }
KeyPkgReceiversV2 ::= SEQUENCE SIZE (1..MAX) OF KeyPkgReceiver
KeyPkgReceiver ::= CHOICE {
  sirEntity [0] SIREntityName,
  community [1] CommunityIdentifier }
TSECNomenclature ::= SEQUENCE {
  shortTitle ShortTitle,
  editionID EditionID OPTIONAL,
  registerID RegisterID OPTIONAL,
  segmentID SegmentID OPTIONAL }
EditionID ::= CHOICE {
  char CHOICE {
    charEdition [1] CharEdition,
    charEditionRange [2] CharEditionRange },
  num CHOICE {
    numEdition [3] NumEdition,
    numEditionRange [4] NumEditionRange } }
CharEdition ::= PrintableString
CharEditionRange ::= SEQUENCE {
  firstCharEdition CharEdition,
  lastCharEdition CharEdition }
NumEdition ::= INTEGER (0..308915776)
NumEditionRange ::= SEQUENCE {
  firstNumEdition NumEdition,
  lastNumEdition NumEdition }
RegisterID ::= CHOICE {
  register [5] Register,
  registerRange [6] RegisterRange }
Register ::= INTEGER (0..2147483647)
RegisterRange ::= SEQUENCE {
  firstRegister Register,
  lastRegister Register }
SegmentID ::= CHOICE {
  segmentNumber [7] SegmentNumber,
  segmentRange [8] SegmentRange }
SegmentNumber ::= INTEGER (1..127)
SegmentRange ::= SEQUENCE {
  firstSegment SegmentNumber,
  lastSegment SegmentNumber }
KeyUse ::= ENUMERATED { n-a(0), ffk(1), kek(2), kpk(3), msk(4), qkek(5), tek(6), tsk(7), trkek(8), nfk(9), effk(10), ebfk(11),
  aek(12), wod(13), kesk(246), eik(247), ask(248), kmk(249), rsk(250), csk(251), sak(252), rgk(253), cek(254), exk(255) }
TransOp ::= ENUMERATED { transport(1), operational(2) }
KeyDistPeriod ::= SEQUENCE {
  doNotDistBefore [0] BinaryTime OPTIONAL,
  doNotDistAfter BinaryTime }
KeyValidityPeriod ::= SEQUENCE {
  doNotUseBefore BinaryTime,
  doNotUseAfter BinaryTime OPTIONAL }
ub-KeyDuration-hours INTEGER ::= 96
ub-KeyDuration-days INTEGER ::= 732
ub-KeyDuration-weeks INTEGER ::= 104
ub-KeyDuration-months INTEGER ::= 72
ub-KeyDuration-years INTEGER ::= 100
KeyDuration ::= CHOICE {
  hours [0] INTEGER (1..ub-KeyDuration-hours),
  days INTEGER (1..ub-KeyDuration-days),
  weeks [1] INTEGER (1..ub-KeyDuration-weeks),
  months [2] INTEGER (1..ub-KeyDuration-months),
  years [3] INTEGER (1..ub-KeyDuration-years) }
Classification ::= ESSSecurityLabel
EnumeratedTag ::= SEQUENCE {
  tagName OBJECT IDENTIFIER,
  attributeList SET OF SecurityAttribute }
SecurityAttribute ::= INTEGER (0..MAX)
InformativeTag ::= SEQUENCE {
  tagName OBJECT IDENTIFIER,
  attributes FreeFormField }
FreeFormField ::= CHOICE {
  bitSetAttributes BIT STRING,
  securityAttributes SET OF SecurityAttribute }
SplitID ::= SEQUENCE {
  half ENUMERATED { a(0), b(1) },
  combineAlg AlgorithmIdentifier OPTIONAL }
KeyPkgType ::= OBJECT IDENTIFIER
SignatureUsage ::= CMSContentConstraints
PkiPath ::= SEQUENCE SIZE (1..MAX) OF Certificate
END
