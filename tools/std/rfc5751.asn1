-- RFC 5751, appendix A.
SecureMimeMessageV3dot1 DEFINITIONS IMPLICIT TAGS ::= BEGIN
IMPORTS SubjectKeyIdentifier, IssuerAndSerialNumber, RecipientKeyIdentifier FROM rfc5652;
id-smime OBJECT IDENTIFIER ::= { iso(1) member-body(2) us(840) rsadsi(113549) pkcs(1) pkcs9(9) 16 }
id-cap OBJECT IDENTIFIER ::= { id-smime 11 }
id-aa OBJECT IDENTIFIER ::= { iso(1) member-body(2) us(840) rsadsi(113549) pkcs(1) pkcs-9(9) smime(16) attributes(2) }
smimeCapabilities OBJECT IDENTIFIER ::= { iso(1) member-body(2) us(840) rsadsi(113549) pkcs(1) pkcs-9(9) 15 }
id-aa-encrypKeyPref OBJECT IDENTIFIER ::= { id-aa 11 }
id-cap-preferBinaryInside OBJECT IDENTIFIER ::= { id-cap 1 }
rc2CBC OBJECT IDENTIFIER ::= { iso(1) member-body(2) us(840) rsadsi(113549) encryptionAlgorithm(3) 2 }
SMIMECapability ::= SEQUENCE {
  capabilityID OBJECT IDENTIFIER,
  parameters ANY DEFINED BY capabilityID OPTIONAL }
SMIMECapabilities ::= SEQUENCE OF SMIMECapability
SMIMEEncryptionKeyPreference ::= CHOICE {
  issuerAndSerialNumber [0] IssuerAndSerialNumber,
  receipentKeyId [1] RecipientKeyIdentifier,
  subjectAltKeyIdentifier [2] SubjectKeyIdentifier }
SMIMECapabilitiesParametersForRC2CBC ::= INTEGER -- (40 | 128, ...)
END
