-- RFC 6031, appendix A; attributes left out.
SymmetricKeyPackageModulev1 DEFINITIONS IMPLICIT TAGS ::= BEGIN
IMPORTS AttributeType, AttributeValue FROM rfc5280;
id-pskc OBJECT IDENTIFIER ::= { iso(1) member-body(2) us(840) rsadsi(113549) pkcs(1) pkcs9(9) smime(16) 12 }
id-pskc-manufacturer OBJECT IDENTIFIER ::= { id-pskc 1 }
id-pskc-serialNo OBJECT IDENTIFIER ::= { id-pskc 2 }
id-pskc-model OBJECT IDENTIFIER ::= { id-pskc 3 }
id-pskc-issueNo OBJECT IDENTIFIER ::= { id-pskc 4 }
id-pskc-deviceBinding OBJECT IDENTIFIER ::= { id-pskc 5 }
id-pskc-deviceStartDate OBJECT IDENTIFIER ::= { id-pskc 6 }
id-pskc-deviceExpiryDate OBJECT IDENTIFIER ::= { id-pskc 7 }
id-pskc-moduleId OBJECT IDENTIFIER ::= { id-pskc 8 }
id-pskc-deviceUserId OBJECT IDENTIFIER ::= { id-pskc 26 }
id-pskc-keyId OBJECT IDENTIFIER ::= { id-pskc 9 }
id-pskc-algorithm OBJECT IDENTIFIER ::= { id-pskc 10 }
id-pskc-issuer OBJECT IDENTIFIER ::= { id-pskc 11 }
id-pskc-keyProfileId OBJECT IDENTIFIER ::= { id-pskc 12 }
id-pskc-keyReference OBJECT IDENTIFIER ::= { id-pskc 13 }
id-pskc-friendlyName OBJECT IDENTIFIER ::= { id-pskc 14 }
id-pskc-algorithmParameters OBJECT IDENTIFIER ::= { id-pskc 15 }
id-pskc-counter OBJECT IDENTIFIER ::= { id-pskc 16 }
id-pskc-time OBJECT IDENTIFIER ::= { id-pskc 17 }
id-pskc-timeInterval OBJECT IDENTIFIER ::= { id-pskc 18 }
id-pskc-timeDrift OBJECT IDENTIFIER ::= { id-pskc 19 }
id-pskc-valueMAC OBJECT IDENTIFIER ::= { id-pskc 20 }
id-pskc-keyUserId OBJECT IDENTIFIER ::= { id-pskc 27 }
id-pskc-keyStartDate OBJECT IDENTIFIER ::= { id-pskc 21 }
id-pskc-keyExpiryDate OBJECT IDENTIFIER ::= { id-pskc 22 }
id-pskc-numberOfTransactions OBJECT IDENTIFIER ::= { id-pskc 23 }
id-pskc-keyUsages OBJECT IDENTIFIER ::= { id-pskc 24 }
id-pskc-pinPolicy OBJECT IDENTIFIER ::= { id-pskc 25 }

id-ct-KP-sKeyPackage OBJECT IDENTIFIER ::= { iso(1) member-body(2) us(840) rsadsi(113549) pkcs(1) pkcs9(9) smime(16) ct(1) 25 }
SKeyAttribute ::= SEQUENCE {
  attrType AttributeType,
  attrValues SET SIZE (1..MAX) OF AttributeValue }
SKeyPkgAttribute ::= SEQUENCE {
  attrType AttributeType,
  attrValues SET SIZE (1..MAX) OF AttributeValue }
SymmetricKeyPackage ::= SEQUENCE {
  version KeyPkgVersion DEFAULT v1,
  sKeyPkgAttrs [0] SEQUENCE SIZE (1..MAX) OF SKeyPkgAttribute OPTIONAL,
  sKeys SymmetricKeys, ... }
SymmetricKeys ::= SEQUENCE SIZE (1..MAX) OF OneSymmetricKey
OneSymmetricKey ::= SEQUENCE {
  sKeyAttrs SEQUENCE SIZE (1..MAX) OF SKeyAttribute OPTIONAL,
  sKey OCTET STRING OPTIONAL }
  (SIZE (1..2)) -- (WITH COMPONENTS {..., sKeyAttrs PRESENT} | WITH COMPONENTS {..., sKey PRESENT})
KeyPkgVersion ::= INTEGER { v1(1) } -- (v1, ...)
FriendlyName ::= SEQUENCE {
  friendlyName UTF8String,
  friendlyNameLangTag UTF8String OPTIONAL }
PSKCAlgorithmParameters ::= CHOICE {
  suite UTF8String,
  challengeFormat [0] ChallengeFormat,
  responseFormat [1] ResponseFormat, ... }
ChallengeFormat ::= SEQUENCE {
  encoding Encoding,
  checkDigit BOOLEAN DEFAULT FALSE,
  min INTEGER (0..MAX),
  max INTEGER (0..MAX), ... }
Encoding ::= UTF8String ("DECIMAL" | "HEXADECIMAL" | "ALPHANUMERIC" | "BASE64")
ResponseFormat ::= SEQUENCE {
  encoding Encoding,
  length INTEGER (0..MAX),
  checkDigit BOOLEAN DEFAULT FALSE, ... }
ValueMac ::= SEQUENCE {
  macAlgorithm UTF8String,
  mac UTF8String }
PSKCKeyUsages ::= SEQUENCE OF PSKCKeyUsage
PSKCKeyUsage ::= UTF8String ("OTP" | "CR" | "Encrypt" | "Integrity" | "Verify" | "Unlock" | "Decrypt" | "KeyWrap" | "Unwrap" | "Derive" | "Generate")
PINPolicy ::= SEQUENCE {
  pinKeyId [0] UTF8String OPTIONAL,
  pinUsageMode [1] PINUsageMode,
  maxFailedAttempts [2] INTEGER (0..MAX) OPTIONAL,
  minLength [3] INTEGER (0..MAX) OPTIONAL,
  maxLength [4] INTEGER (0..MAX) OPTIONAL,
  pinEncoding [5] Encoding OPTIONAL, ... }
PINUsageMode ::= UTF8String ("Local" | "Prepend" | "Append" | "Algorithmic")
END
