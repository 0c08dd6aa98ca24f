AsymmetricKeyPackageModuleV1 DEFINITIONS IMPLICIT TAGS ::= BEGIN
KeyEncryptionAlgorithmIdentifier ::= rfc5280.AlgorithmIdentifier
END
