-- RFC 6032.
EncryptedKeyPackageModulev1 DEFINITIONS IMPLICIT TAGS ::= BEGIN
IMPORTS EncryptedData, EnvelopedData FROM rfc5652
  AuthEnvelopedData FROM rfc5083;
id-ct-KP-encryptedKeyPkg OBJECT IDENTIFIER ::= { joint-iso-itu-t(2) country(16) us(840) organization(1) gov(101) dod(2) infosec(1) formats(2) key-package(78) 2 }
EncryptedKeyPackage ::= CHOICE {
  encrypted EncryptedData,
  enveloped [0] EnvelopedData,
  authEnveloped [1] AuthEnvelopedData, ... }
id-aa-KP-contentDecryptKeyID OBJECT IDENTIFIER ::= { joint-iso-itu-t(2) country(16) us(840) organization(1) gov(101) dod(2) infosec(1) attributes(5) 66 }
ContentDecryptKeyID ::= OCTET STRING
END
