-- Filters of three levels; reserved alternatives and numbers; three requests are not what they should be.
Lightweight-Directory-Access-Protocol-V3 DEFINITIONS IMPLICIT TAGS ::= BEGIN
Filter3 ::= CHOICE {
  equalityMatch [3] AttributeValueAssertion,
  substrings [4] SubstringFilter,
  greaterOrEqual [5] AttributeValueAssertion,
  lessOrEqual [6] AttributeValueAssertion,
  present [7] AttributeDescription,
  approxMatch [8] AttributeValueAssertion,
  extensibleMatch [9] MatchingRuleAssertion }
Filter2 ::= CHOICE {
  and [0] SET OF Filter3,
  or [1] SET OF Filter3,
  not [2] Filter3,
  equalityMatch [3] AttributeValueAssertion,
  substrings [4] SubstringFilter,
  greaterOrEqual [5] AttributeValueAssertion,
  lessOrEqual [6] AttributeValueAssertion,
  present [7] AttributeDescription,
  approxMatch [8] AttributeValueAssertion,
  extensibleMatch [9] MatchingRuleAssertion }
Filter ::= CHOICE {
  and [0] SET OF Filter2,
  or [1] SET OF Filter2,
  not [2] Filter2,
  equalityMatch [3] AttributeValueAssertion,
  substrings [4] SubstringFilter,
  greaterOrEqual [5] AttributeValueAssertion,
  lessOrEqual [6] AttributeValueAssertion,
  present [7] AttributeDescription,
  approxMatch [8] AttributeValueAssertion,
  extensibleMatch [9] MatchingRuleAssertion }
AuthenticationChoice ::= CHOICE {
  simple [0] OCTET STRING,
  reserved-1 [1] OCTET STRING,
  reserved-2 [2] OCTET STRING,
  sasl [3] SaslCredentials }
LDAPResult ::= SEQUENCE {
  resultCode ENUMERATED { success(0), operationsError(1), protocolError(2), timeLimitExceeded(3), sizeLimitExceeded(4),
    compareFalse(5), compareTrue(6), authMethodNotSupported(7), strongAuthRequired(8), reserved-9(9), referral(10),
    adminLimitExceeded(11), unavailableCriticalExtension(12), confidentialityRequired(13), saslBindInProgress(14),
    noSuchAttribute(16), undefinedAttributeType(17), inappropriateMatching(18), constraintViolation(19),
    attributeOrValueExists(20), invalidAttributeSyntax(21), noSuchObject(32), aliasProblem(33), invalidDNSyntax(34),
    reserved-35(35), aliasDereferencingProblem(36), inappropriateAuthentication(48), invalidCredentials(49),
    insufficientAccessRights(50), busy(51), unavailable(52), unwillingToPerform(53), loopDetect(54),
    namingViolation(64), objectClassViolation(65), notAllowedOnNonLeaf(66), notAllowedOnRDN(67),
    entryAlreadyExists(68), objectClassModsProhibited(69), reserved-70(70), affectsMultipleDSAs(71), other(80),
    reserved-81(81), reserved-82(82), reserved-83(83), reserved-84(84), reserved-85(85), reserved-86(86),
    reserved-87(87), reserved-88(88), reserved-89(89), reserved-90(90) },
  matchedDN LDAPDN,
  errorMessage LDAPString,
  referral [3] Referral OPTIONAL }
UnbindRequest ::= [APPLICATION 2] CONSTRUCTED NULL
DelRequest ::= [APPLICATION 10] LDAPResult
AbandonRequest ::= [APPLICATION 16] LDAPResult
END
