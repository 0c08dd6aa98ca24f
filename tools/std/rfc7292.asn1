-- RFC 7292 (PKCS #12 v1.1), appendix D, with the parameterised types written out.
PKCS-12 DEFINITIONS IMPLICIT TAGS ::= BEGIN
IMPORTS ContentInfo, DigestInfo FROM rfc2315 PrivateKeyInfo, EncryptedPrivateKeyInfo FROM rfc5958;
rsadsi OBJECT IDENTIFIER ::= { iso(1) member-body(2) us(840) rsadsi(113549) }
pkcs OBJECT IDENTIFIER ::= { rsadsi pkcs(1) }
pkcs-12 OBJECT IDENTIFIER ::= { pkcs 12 }
pkcs-12PbeIds OBJECT IDENTIFIER ::= { pkcs-12 1 }
pbeWithSHAAnd128BitRC4 OBJECT IDENTIFIER ::= { pkcs-12PbeIds 1 }
pbeWithSHAAnd40BitRC4 OBJECT IDENTIFIER ::= { pkcs-12PbeIds 2 }
pbeWithSHAAnd3-KeyTripleDES-CBC OBJECT IDENTIFIER ::= { pkcs-12PbeIds 3 }
pbeWithSHAAnd2-KeyTripleDES-CBC OBJECT IDENTIFIER ::= { pkcs-12PbeIds 4 }
pbeWithSHAAnd128BitRC2-CBC OBJECT IDENTIFIER ::= { pkcs-12PbeIds 5 }
pbeWithSHAAnd40BitRC2-CBC OBJECT IDENTIFIER ::= { pkcs-12PbeIds 6 }
bagtypes OBJECT IDENTIFIER ::= { pkcs-12 10 1 }
id-keyBag OBJECT IDENTIFIER ::= { bagtypes 1 }
id-pkcs8ShroudedKeyBag OBJECT IDENTIFIER ::= { bagtypes 2 }
id-certBag OBJECT IDENTIFIER ::= { bagtypes 3 }
id-CRLBag OBJECT IDENTIFIER ::= { bagtypes 4 }
id-secretBag OBJECT IDENTIFIER ::= { bagtypes 5 }
id-safeContentsBag OBJECT IDENTIFIER ::= { bagtypes 6 }
PFX ::= SEQUENCE {
  version INTEGER { v3(3) },
  authSafe ContentInfo,
  macData MacData OPTIONAL }
MacData ::= SEQUENCE {
  mac DigestInfo,
  macSalt OCTET STRING,
  iterations INTEGER DEFAULT 1 }
AuthenticatedSafe ::= SEQUENCE OF ContentInfo
SafeContents ::= SEQUENCE OF SafeBag
SafeBag ::= SEQUENCE {
  bagId OBJECT IDENTIFIER,
  bagValue [0] EXPLICIT ANY DEFINED BY bagId,
  bagAttributes SET OF PKCS12Attribute OPTIONAL }
PKCS12Attribute ::= SEQUENCE {
  attrId OBJECT IDENTIFIER,
  attrValues SET OF ANY }
KeyBag ::= PrivateKeyInfo
PKCS8ShroudedKeyBag ::= EncryptedPrivateKeyInfo
CertBag ::= SEQUENCE {
  certId OBJECT IDENTIFIER,
  certValue [0] EXPLICIT ANY DEFINED BY certId }
CRLBag ::= SEQUENCE {
  crlId OBJECT IDENTIFIER,
  crlValue [0] EXPLICIT ANY DEFINED BY crlId }
SecretBag ::= SEQUENCE {
  secretTypeId OBJECT IDENTIFIER,
  secretValue [0] EXPLICIT ANY DEFINED BY secretTypeId }
PKCS12PbeParams ::= SEQUENCE {
  salt OCTET STRING,
  iterations INTEGER }
Pkcs-12PbeParams ::= SEQUENCE {
  salt OCTET STRING,
  iterations INTEGER }
pkcs-9 OBJECT IDENTIFIER ::= { pkcs 9 }
certTypes OBJECT IDENTIFIER ::= { pkcs-9 22 }
crlTypes OBJECT IDENTIFIER ::= { pkcs-9 23 }
END
