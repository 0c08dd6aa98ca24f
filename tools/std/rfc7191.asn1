-- RFC 7191, appendix A.2.
KeyPackageReceiptAndErrorModuleV2 DEFINITIONS IMPLICIT TAGS ::= BEGIN
IMPORTS AttributeValue, RDNSequence FROM rfc5280;
id-ct-KP-keyPackageReceipt OBJECT IDENTIFIER ::= { joint-iso-itu-t(2) country(16) us(840) organization(1) gov(101) dod(2) infosec(1) formats(2) key-package(78) 3 }
id-ct-KP-keyPackageError OBJECT IDENTIFIER ::= { joint-iso-itu-t(2) country(16) us(840) organization(1) gov(101) dod(2) infosec(1) formats(2) key-package(78) 6 }
id-aa-KP-keyPkgIdAndReceiptReq OBJECT IDENTIFIER ::= { joint-iso-itu-t(2) country(16) us(840) organization(1) gov(101) dod(2) infosec(1) attributes(5) 65 }
id-dn OBJECT IDENTIFIER ::= { joint-iso-itu-t(2) country(16) us(840) organization(1) gov(101) dod(2) infosec(1) sir-name-types(16) 0 }
KeyPkgID ::= OCTET STRING
KeyPkgIdentifierAndReceiptReq ::= SEQUENCE {
  pkgID KeyPkgID,
  receiptReq KeyPkgReceiptReq OPTIONAL }
KeyPkgReceiptReq ::= SEQUENCE {
  encryptReceipt BOOLEAN DEFAULT FALSE,
  receiptsFrom [0] SIREntityNames OPTIONAL,
  receiptsTo SIREntityNames }
SIREntityNames ::= SEQUENCE SIZE (1..MAX) OF SIREntityName
SIREntityName ::= SEQUENCE {
  sirenType SIREntityNameType,
  sirenValue OCTET STRING } -- CONTAINING SIREntityNameValue
SIREntityNameType ::= OBJECT IDENTIFIER
SIREntityNameValue ::= ANY
DistinguishedName ::= RDNSequence
KeyPackageReceipt ::= SEQUENCE {
  version KeyPkgVersion DEFAULT v2,
  receiptOf KeyPkgIdentifier,
  receivedBy SIREntityName }
KeyPkgIdentifier ::= CHOICE {
  pkgID KeyPkgID,
  attribute SingleAttribute }
SingleAttribute ::= SEQUENCE {
  attrType OBJECT IDENTIFIER,
  attrValues SET SIZE (1) OF AttributeValue }
KeyPackageError ::= SEQUENCE {
  version KeyPkgVersion DEFAULT v2,
  errorOf [0] KeyPkgIdentifier OPTIONAL,
  errorBy SIREntityName,
  errorCode ErrorCodeChoice }
KeyPkgVersion ::= INTEGER { v1(1), v2(2) } (1..65535)
ErrorCodeChoice ::= CHOICE {
  enum EnumeratedErrorCode,
  oid OBJECT IDENTIFIER }
EnumeratedErrorCode ::= ENUMERATED {
  decodeFailure(1), badContentInfo(2), badSignedData(3), badEncapContent(4), badCertificate(5), badSignerInfo(6),
  badSignedAttrs(7), badUnsignedAttrs(8), missingContent(9), noTrustAnchor(10), notAuthorized(11), badDigestAlgorithm(12),
  badSignatureAlgorithm(13), unsupportedKeySize(14), unsupportedParameters(15), signatureFailure(16), insufficientMemory(17),
  incorrectTarget(23), missingSignature(29), resourcesBusy(30), versionNumberMismatch(31), revokedCertificate(33),
  ambiguousDecrypt(60), noDecryptKey(61), badEncryptedData(62), badEnvelopedData(63), badAuthenticatedData(64),
  badAuthEnvelopedData(65), badKeyAgreeRecipientInfo(66), badKEKRecipientInfo(67), badEncryptContent(68),
  badEncryptAlgorithm(69), missingCiphertext(70), decryptFailure(71), badMACAlgorithm(72), badAuthAttrs(73),
  badUnauthAttrs(74), invalidMAC(75), mismatchedDigestAlg(76), missingCertificate(77), tooManySigners(78),
  missingSignedAttributes(79), derEncodingNotUsed(80), missingContentHints(81), invalidAttributeLocation(82),
  badMessageDigest(83), badKeyPackage(84), badAttributes(85), attributeComparisonFailure(86),
  unsupportedSymmetricKeyPackage(87), unsupportedAsymmetricKeyPackage(88), constraintViolation(89),
  ambiguousDefaultValue(90), noMatchingRecipientInfo(91), unsupportedKeyWrapAlgorithm(92), badKeyTransRecipientInfo(93),
  other(127) }
END
