-- RFC 2251, appendix A.  `Filter` is recursive; see C44 for it.
Lightweight-Directory-Access-Protocol-V3 DEFINITIONS IMPLICIT TAGS ::= BEGIN
IMPORTS Filter FROM package;
maxInt INTEGER ::= 2147483647
LDAPMessage ::= SEQUENCE {
  messageID MessageID,
  protocolOp CHOICE {
    bindRequest BindRequest,
    bindResponse BindResponse,
    unbindRequest UnbindRequest,
    searchRequest SearchRequest,
    searchResEntry SearchResultEntry,
    searchResDone SearchResultDone,
    searchResRef SearchResultReference,
    modifyRequest ModifyRequest,
    modifyResponse ModifyResponse,
    addRequest AddRequest,
    addResponse AddResponse,
    delRequest DelRequest,
    delResponse DelResponse,
    modDNRequest ModifyDNRequest,
    modDNResponse ModifyDNResponse,
    compareRequest CompareRequest,
    compareResponse CompareResponse,
    abandonRequest AbandonRequest,
    extendedReq ExtendedRequest,
    extendedResp ExtendedResponse },
  controls [0] Controls OPTIONAL }
MessageID ::= INTEGER (0..maxInt)
LDAPString ::= OCTET STRING
LDAPOID ::= OCTET STRING
LDAPDN ::= LDAPString
RelativeLDAPDN ::= LDAPString
AttributeType ::= LDAPString
AttributeDescription ::= LDAPString
AttributeDescriptionList ::= SEQUENCE OF AttributeDescription
AttributeValue ::= OCTET STRING
AttributeValueAssertion ::= SEQUENCE {
  attributeDesc AttributeDescription,
  assertionValue AssertionValue }
AssertionValue ::= OCTET STRING
Attribute ::= SEQUENCE {
  type AttributeDescription,
  vals SET OF AttributeValue }
MatchingRuleId ::= LDAPString
LDAPResult ::= SEQUENCE {
  resultCode ENUMERATED { success(0), operationsError(1), protocolError(2), timeLimitExceeded(3), sizeLimitExceeded(4),
    compareFalse(5), compareTrue(6), authMethodNotSupported(7), strongAuthRequired(8), referral(10),
    adminLimitExceeded(11), unavailableCriticalExtension(12), confidentialityRequired(13), saslBindInProgress(14),
    noSuchAttribute(16), undefinedAttributeType(17), inappropriateMatching(18), constraintViolation(19),
    attributeOrValueExists(20), invalidAttributeSyntax(21), noSuchObject(32), aliasProblem(33), invalidDNSyntax(34),
    aliasDereferencingProblem(36), inappropriateAuthentication(48), invalidCredentials(49),
    insufficientAccessRights(50), busy(51), unavailable(52), unwillingToPerform(53), loopDetect(54),
    namingViolation(64), objectClassViolation(65), notAllowedOnNonLeaf(66), notAllowedOnRDN(67),
    entryAlreadyExists(68), objectClassModsProhibited(69), affectsMultipleDSAs(71), other(80) },
  matchedDN LDAPDN,
  errorMessage LDAPString,
  referral [3] Referral OPTIONAL }
Referral ::= SEQUENCE OF LDAPURL
LDAPURL ::= LDAPString
Controls ::= SEQUENCE OF Control
Control ::= SEQUENCE {
  controlType LDAPOID,
  criticality BOOLEAN DEFAULT FALSE,
  controlValue OCTET STRING OPTIONAL }
BindRequest ::= [APPLICATION 0] SEQUENCE {
  version INTEGER (1..127),
  name LDAPDN,
  authentication AuthenticationChoice }
AuthenticationChoice ::= CHOICE {
  simple [0] OCTET STRING,
  sasl [3] SaslCredentials }
SaslCredentials ::= SEQUENCE {
  mechanism LDAPString,
  credentials OCTET STRING OPTIONAL }
BindResponse ::= [APPLICATION 1] SEQUENCE {
  COMPONENTS OF LDAPResult,
  serverSaslCreds [7] OCTET STRING OPTIONAL }
UnbindRequest ::= [APPLICATION 2] NULL
SearchRequest ::= [APPLICATION 3] SEQUENCE {
  baseObject LDAPDN,
  scope ENUMERATED { baseObject(0), singleLevel(1), wholeSubtree(2) },
  derefAliases ENUMERATED { neverDerefAliases(0), derefInSearching(1), derefFindingBaseObj(2), derefAlways(3) },
  sizeLimit INTEGER (0..maxInt),
  timeLimit INTEGER (0..maxInt),
  typesOnly BOOLEAN,
  filter Filter,
  attributes AttributeDescriptionList }
SubstringFilter ::= SEQUENCE {
  type AttributeDescription,
  substrings SEQUENCE OF CHOICE {
    initial [0] LDAPString,
    any [1] LDAPString,
    final [2] LDAPString } }
MatchingRuleAssertion ::= SEQUENCE {
  matchingRule [1] MatchingRuleId OPTIONAL,
  type [2] AttributeDescription OPTIONAL,
  matchValue [3] AssertionValue,
  dnAttributes [4] BOOLEAN DEFAULT FALSE }
SearchResultEntry ::= [APPLICATION 4] SEQUENCE {
  objectName LDAPDN,
  attributes PartialAttributeList }
PartialAttributeList ::= SEQUENCE OF SEQUENCE {
  type AttributeDescription,
  vals SET OF AttributeValue }
SearchResultReference ::= [APPLICATION 19] SEQUENCE OF LDAPURL
SearchResultDone ::= [APPLICATION 5] LDAPResult
ModifyRequest ::= [APPLICATION 6] SEQUENCE {
  object LDAPDN,
  modification SEQUENCE OF SEQUENCE {
    operation ENUMERATED { add(0), delete(1), replace(2) },
    modification AttributeTypeAndValues } }
AttributeTypeAndValues ::= SEQUENCE {
  type AttributeDescription,
  vals SET OF AttributeValue }
ModifyResponse ::= [APPLICATION 7] LDAPResult
AddRequest ::= [APPLICATION 8] SEQUENCE {
  entry LDAPDN,
  attributes AttributeList }
AttributeList ::= SEQUENCE OF SEQUENCE {
  type AttributeDescription,
  vals SET OF AttributeValue }
AddResponse ::= [APPLICATION 9] LDAPResult
DelRequest ::= [APPLICATION 10] LDAPDN
DelResponse ::= [APPLICATION 11] LDAPResult
ModifyDNRequest ::= [APPLICATION 12] SEQUENCE {
  entry LDAPDN,
  newrdn RelativeLDAPDN,
  deleteoldrdn BOOLEAN,
  newSuperior [0] LDAPDN OPTIONAL }
ModifyDNResponse ::= [APPLICATION 13] LDAPResult
CompareRequest ::= [APPLICATION 14] SEQUENCE {
  entry LDAPDN,
  ava AttributeValueAssertion }
CompareResponse ::= [APPLICATION 15] LDAPResult
AbandonRequest ::= [APPLICATION 16] MessageID
ExtendedRequest ::= [APPLICATION 23] SEQUENCE {
  requestName [0] LDAPOID,
  requestValue [1] OCTET STRING OPTIONAL }
ExtendedResponse ::= [APPLICATION 24] SEQUENCE {
  COMPONENTS OF LDAPResult,
  responseName [10] LDAPOID OPTIONAL,
  response [11] OCTET STRING OPTIONAL }
END
