-- RFC 4476.
AcPolicies DEFINITIONS IMPLICIT TAGS ::= BEGIN
IMPORTS PolicyQualifierId, PolicyQualifierInfo, UserNotice, id-pkix FROM rfc5280;
id-pe OBJECT IDENTIFIER ::= { id-pkix 1 }
id-pe-acPolicies OBJECT IDENTIFIER ::= { id-pe 15 }
AcPoliciesSyntax ::= SEQUENCE SIZE (1..MAX) OF PolicyInformation
PolicyInformation ::= SEQUENCE {
  policyIdentifier AcPolicyId,
  policyQualifiers SEQUENCE SIZE (1..MAX) OF PolicyQualifierInfo OPTIONAL }
AcPolicyId ::= OBJECT IDENTIFIER
id-qt OBJECT IDENTIFIER ::= { id-pkix 2 }
id-qt-acps OBJECT IDENTIFIER ::= { id-qt 4 }
id-qt-acunotice OBJECT IDENTIFIER ::= { id-qt 5 }
ACUserNotice ::= UserNotice
ACPSuri ::= IA5String
END
