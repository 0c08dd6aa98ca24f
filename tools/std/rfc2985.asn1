-- RFC 2985, appendix A (PKCS #9); attribute definitions left out.
PKCS-9 DEFINITIONS EXPLICIT TAGS ::= BEGIN
IMPORTS Attribute, AttributeType, AttributeValue, Extensions, Time, EmailAddress, AlgorithmIdentifier, X520SerialNumber, X520countryName, id-at, ub-name FROM rfc5280
  ContentInfo, ContentType, SignerInfo, MessageDigest, SigningTime, Countersignature FROM rfc5652
  EncryptedPrivateKeyInfo FROM rfc5958
  PFX FROM rfc7292;
pkcs-9 OBJECT IDENTIFIER ::= { iso(1) member-body(2) us(840) rsadsi(113549) pkcs(1) 9 }
pkcs-9-mo OBJECT IDENTIFIER ::= { pkcs-9 0 }
pkcs-9-oc OBJECT IDENTIFIER ::= { pkcs-9 24 }
pkcs-9-at OBJECT IDENTIFIER ::= { pkcs-9 25 }
pkcs-9-sx OBJECT IDENTIFIER ::= { pkcs-9 26 }
pkcs-9-mr OBJECT IDENTIFIER ::= { pkcs-9 27 }
pkcs-9-oc-pkcsEntity OBJECT IDENTIFIER ::= { pkcs-9-oc 1 }
pkcs-9-oc-naturalPerson OBJECT IDENTIFIER ::= { pkcs-9-oc 2 }
pkcs-9-at-emailAddress OBJECT IDENTIFIER ::= { pkcs-9 1 }
pkcs-9-at-unstructuredName OBJECT IDENTIFIER ::= { pkcs-9 2 }
pkcs-9-at-contentType OBJECT IDENTIFIER ::= { pkcs-9 3 }
pkcs-9-at-messageDigest OBJECT IDENTIFIER ::= { pkcs-9 4 }
pkcs-9-at-signingTime OBJECT IDENTIFIER ::= { pkcs-9 5 }
pkcs-9-at-counterSignature OBJECT IDENTIFIER ::= { pkcs-9 6 }
pkcs-9-at-challengePassword OBJECT IDENTIFIER ::= { pkcs-9 7 }
pkcs-9-at-unstructuredAddress OBJECT IDENTIFIER ::= { pkcs-9 8 }
pkcs-9-at-extendedCertificateAttributes OBJECT IDENTIFIER ::= { pkcs-9 9 }
pkcs-9-at-signingDescription OBJECT IDENTIFIER ::= { pkcs-9 13 }
pkcs-9-at-extensionRequest OBJECT IDENTIFIER ::= { pkcs-9 14 }
pkcs-9-at-smimeCapabilities OBJECT IDENTIFIER ::= { pkcs-9 15 }
pkcs-9-at-friendlyName OBJECT IDENTIFIER ::= { pkcs-9 20 }
pkcs-9-at-localKeyId OBJECT IDENTIFIER ::= { pkcs-9 21 }
pkcs-9-at-userPKCS12 OBJECT IDENTIFIER ::= { joint-iso-itu-t(2) country(16) us(840) 1 113730 3 1 216 }
pkcs-9-at-pkcs15Token OBJECT IDENTIFIER ::= { pkcs-9-at 1 }
pkcs-9-at-encryptedPrivateKeyInfo OBJECT IDENTIFIER ::= { pkcs-9-at 2 }
pkcs-9-at-randomNonce OBJECT IDENTIFIER ::= { pkcs-9-at 3 }
pkcs-9-at-sequenceNumber OBJECT IDENTIFIER ::= { pkcs-9-at 4 }
pkcs-9-at-pkcs7PDU OBJECT IDENTIFIER ::= { pkcs-9-at 5 }
ietf-at OBJECT IDENTIFIER ::= { iso(1) identified-organization(3) dod(6) internet(1) security(5) mechanisms(5) pkix(7) 9 }
pkcs-9-at-dateOfBirth OBJECT IDENTIFIER ::= { ietf-at 1 }
pkcs-9-at-placeOfBirth OBJECT IDENTIFIER ::= { ietf-at 2 }
pkcs-9-at-gender OBJECT IDENTIFIER ::= { ietf-at 3 }
pkcs-9-at-countryOfCitizenship OBJECT IDENTIFIER ::= { ietf-at 4 }
pkcs-9-at-countryOfResidence OBJECT IDENTIFIER ::= { ietf-at 5 }
id-at-pseudonym OBJECT IDENTIFIER ::= { id-at 65 }
id-at-serialNumber OBJECT IDENTIFIER ::= { id-at 5 }
pkcs-9-sx-pkcs9String OBJECT IDENTIFIER ::= { pkcs-9-sx 1 }
pkcs-9-sx-signingTime OBJECT IDENTIFIER ::= { pkcs-9-sx 2 }
pkcs-9-mr-caseIgnoreMatch OBJECT IDENTIFIER ::= { pkcs-9-mr 1 }
pkcs-9-mr-signingTimeMatch OBJECT IDENTIFIER ::= { pkcs-9-mr 2 }
smime OBJECT IDENTIFIER ::= { pkcs-9 16 }
certTypes OBJECT IDENTIFIER ::= { pkcs-9 22 }
crlTypes OBJECT IDENTIFIER ::= { pkcs-9 23 }
pkcs-9-ub-pkcs9String INTEGER ::= 255
pkcs-9-ub-emailAddress INTEGER ::= pkcs-9-ub-pkcs9String
pkcs-9-ub-unstructuredName INTEGER ::= pkcs-9-ub-pkcs9String
pkcs-9-ub-unstructuredAddress INTEGER ::= pkcs-9-ub-pkcs9String
pkcs-9-ub-challengePassword INTEGER ::= pkcs-9-ub-pkcs9String
pkcs-9-ub-friendlyName INTEGER ::= pkcs-9-ub-pkcs9String
pkcs-9-ub-signingDescription INTEGER ::= pkcs-9-ub-pkcs9String
pkcs-9-ub-match INTEGER ::= pkcs-9-ub-pkcs9String
pkcs-9-ub-pseudonym INTEGER ::= ub-name
pkcs-9-ub-placeOfBirth INTEGER ::= ub-name
RandomNonce ::= OCTET STRING (SIZE (4..MAX))
SequenceNumber ::= INTEGER (1..MAX)
ExtensionRequest ::= Extensions
END
