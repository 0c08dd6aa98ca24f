-- RFC 8696.
CMSORIforPSK-2019 DEFINITIONS EXPLICIT TAGS ::= BEGIN
IMPORTS CMSVersion, EncryptedKey, KeyDerivationAlgorithmIdentifier, KeyEncryptionAlgorithmIdentifier, KeyTransRecipientInfo, OriginatorIdentifierOrKey, RecipientEncryptedKeys, UserKeyingMaterial FROM rfc5652;
id-ori OBJECT IDENTIFIER ::= { iso(1) member-body(2) us(840) rsadsi(113549) pkcs(1) pkcs9(9) smime(16) 13 }
id-ori-keyTransPSK OBJECT IDENTIFIER ::= { id-ori 1 }
id-ori-keyAgreePSK OBJECT IDENTIFIER ::= { id-ori 2 }
KeyTransPSKRecipientInfo ::= SEQUENCE {
  version CMSVersion,
  pskid PreSharedKeyIdentifier,
  kdfAlgorithm KeyDerivationAlgorithmIdentifier,
  keyEncryptionAlgorithm KeyEncryptionAlgorithmIdentifier,
  ktris KeyTransRecipientInfos,
  encryptedKey EncryptedKey }
PreSharedKeyIdentifier ::= OCTET STRING
KeyTransRecipientInfos ::= SEQUENCE OF KeyTransRecipientInfo
KeyAgreePSKRecipientInfo ::= SEQUENCE {
  version CMSVersion,
  pskid PreSharedKeyIdentifier,
  originator [0] EXPLICIT OriginatorIdentifierOrKey,
  ukm [1] EXPLICIT UserKeyingMaterial OPTIONAL,
  kdfAlgorithm KeyDerivationAlgorithmIdentifier,
  keyEncryptionAlgorithm KeyEncryptionAlgorithmIdentifier,
  recipientEncryptedKeys RecipientEncryptedKeys }
CMSORIforPSKOtherInfo ::= SEQUENCE {
  psk OCTET STRING,
  keyMgmtAlgType ENUMERATED { keyTrans(5), keyAgree(10) },
  keyEncryptionAlgorithm KeyEncryptionAlgorithmIdentifier,
  pskLength INTEGER (1..MAX),
  kdkLength INTEGER (1..MAX) }
END
