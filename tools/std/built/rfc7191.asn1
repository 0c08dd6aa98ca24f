KeyPackageReceiptAndErrorModuleV2 DEFINITIONS IMPLICIT TAGS ::= BEGIN
AttributeValues ::= SET SIZE (1) OF ANY
Siren-dn ::= SIREntityName
END
