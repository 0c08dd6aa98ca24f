import Verif.Spec.Built
import Verif.Std.Rfc2251

/-! What rfc2251.py implements, where that is not the standard (generated by tools/builtgen.py). -/

namespace Verif
namespace Built
namespace Rfc2251

open Asn1 Verif.Std Spec.X680 Spec.Built

/-- `AuthenticationChoice ::=`, changed or supplied -/
def AuthenticationChoice : Ty :=
  CHOICE [
    mandatory "simple" (implicit .context 0 OCTET_STRING),
    mandatory "reserved-1" (implicit .context 1 OCTET_STRING),
    mandatory "reserved-2" (implicit .context 2 OCTET_STRING),
    mandatory "sasl" (implicit .context 3 Std.Rfc2251.SaslCredentials)]

/-- `BindRequest ::=` -/
def BindRequest : Ty :=
  implicit .application 0 (SEQUENCE [
    mandatory "version" (constrained (RANGE 1 127) INTEGER),
    mandatory "name" Std.Rfc2251.LDAPDN,
    mandatory "authentication" Built.Rfc2251.AuthenticationChoice])

/-- `LDAPResult ::=`, changed or supplied -/
def LDAPResult : Ty :=
  SEQUENCE [
    mandatory "resultCode" (named [("success", 0), ("operationsError", 1), ("protocolError", 2), ("timeLimitExceeded", 3), ("sizeLimitExceeded", 4), ("compareFalse", 5), ("compareTrue", 6), ("authMethodNotSupported", 7), ("strongAuthRequired", 8), ("reserved-9", 9), ("referral", 10), ("adminLimitExceeded", 11), ("unavailableCriticalExtension", 12), ("confidentialityRequired", 13), ("saslBindInProgress", 14), ("noSuchAttribute", 16), ("undefinedAttributeType", 17), ("inappropriateMatching", 18), ("constraintViolation", 19), ("attributeOrValueExists", 20), ("invalidAttributeSyntax", 21), ("noSuchObject", 32), ("aliasProblem", 33), ("invalidDNSyntax", 34), ("reserved-35", 35), ("aliasDereferencingProblem", 36), ("inappropriateAuthentication", 48), ("invalidCredentials", 49), ("insufficientAccessRights", 50), ("busy", 51), ("unavailable", 52), ("unwillingToPerform", 53), ("loopDetect", 54), ("namingViolation", 64), ("objectClassViolation", 65), ("notAllowedOnNonLeaf", 66), ("notAllowedOnRDN", 67), ("entryAlreadyExists", 68), ("objectClassModsProhibited", 69), ("reserved-70", 70), ("affectsMultipleDSAs", 71), ("other", 80), ("reserved-81", 81), ("reserved-82", 82), ("reserved-83", 83), ("reserved-84", 84), ("reserved-85", 85), ("reserved-86", 86), ("reserved-87", 87), ("reserved-88", 88), ("reserved-89", 89), ("reserved-90", 90)] ENUMERATED),
    mandatory "matchedDN" Std.Rfc2251.LDAPDN,
    mandatory "errorMessage" Std.Rfc2251.LDAPString,
    optional "referral" (implicit .context 3 Std.Rfc2251.Referral)]

/-- `BindResponse ::=` -/
def BindResponse : Ty :=
  implicit .application 1 (SEQUENCE [
    mandatory "resultCode" (named [("success", 0), ("operationsError", 1), ("protocolError", 2), ("timeLimitExceeded", 3), ("sizeLimitExceeded", 4), ("compareFalse", 5), ("compareTrue", 6), ("authMethodNotSupported", 7), ("strongAuthRequired", 8), ("reserved-9", 9), ("referral", 10), ("adminLimitExceeded", 11), ("unavailableCriticalExtension", 12), ("confidentialityRequired", 13), ("saslBindInProgress", 14), ("noSuchAttribute", 16), ("undefinedAttributeType", 17), ("inappropriateMatching", 18), ("constraintViolation", 19), ("attributeOrValueExists", 20), ("invalidAttributeSyntax", 21), ("noSuchObject", 32), ("aliasProblem", 33), ("invalidDNSyntax", 34), ("reserved-35", 35), ("aliasDereferencingProblem", 36), ("inappropriateAuthentication", 48), ("invalidCredentials", 49), ("insufficientAccessRights", 50), ("busy", 51), ("unavailable", 52), ("unwillingToPerform", 53), ("loopDetect", 54), ("namingViolation", 64), ("objectClassViolation", 65), ("notAllowedOnNonLeaf", 66), ("notAllowedOnRDN", 67), ("entryAlreadyExists", 68), ("objectClassModsProhibited", 69), ("reserved-70", 70), ("affectsMultipleDSAs", 71), ("other", 80), ("reserved-81", 81), ("reserved-82", 82), ("reserved-83", 83), ("reserved-84", 84), ("reserved-85", 85), ("reserved-86", 86), ("reserved-87", 87), ("reserved-88", 88), ("reserved-89", 89), ("reserved-90", 90)] ENUMERATED),
    mandatory "matchedDN" Std.Rfc2251.LDAPDN,
    mandatory "errorMessage" Std.Rfc2251.LDAPString,
    optional "referral" (implicit .context 3 Std.Rfc2251.Referral),
    optional "serverSaslCreds" (implicit .context 7 OCTET_STRING)])

/-- `UnbindRequest ::=`, changed or supplied -/
def UnbindRequest : Ty :=
  constructed .application 2 NULL

/-- `Filter3 ::=`, changed or supplied -/
def Filter3 : Ty :=
  CHOICE [
    mandatory "equalityMatch" (implicit .context 3 Std.Rfc2251.AttributeValueAssertion),
    mandatory "substrings" (implicit .context 4 Std.Rfc2251.SubstringFilter),
    mandatory "greaterOrEqual" (implicit .context 5 Std.Rfc2251.AttributeValueAssertion),
    mandatory "lessOrEqual" (implicit .context 6 Std.Rfc2251.AttributeValueAssertion),
    mandatory "present" (implicit .context 7 Std.Rfc2251.AttributeDescription),
    mandatory "approxMatch" (implicit .context 8 Std.Rfc2251.AttributeValueAssertion),
    mandatory "extensibleMatch" (implicit .context 9 Std.Rfc2251.MatchingRuleAssertion)]

/-- `Filter2 ::=`, changed or supplied -/
def Filter2 : Ty :=
  CHOICE [
    mandatory "and" (implicit .context 0 (SET_OF Built.Rfc2251.Filter3)),
    mandatory "or" (implicit .context 1 (SET_OF Built.Rfc2251.Filter3)),
    mandatory "not" (implicit .context 2 Built.Rfc2251.Filter3),
    mandatory "equalityMatch" (implicit .context 3 Std.Rfc2251.AttributeValueAssertion),
    mandatory "substrings" (implicit .context 4 Std.Rfc2251.SubstringFilter),
    mandatory "greaterOrEqual" (implicit .context 5 Std.Rfc2251.AttributeValueAssertion),
    mandatory "lessOrEqual" (implicit .context 6 Std.Rfc2251.AttributeValueAssertion),
    mandatory "present" (implicit .context 7 Std.Rfc2251.AttributeDescription),
    mandatory "approxMatch" (implicit .context 8 Std.Rfc2251.AttributeValueAssertion),
    mandatory "extensibleMatch" (implicit .context 9 Std.Rfc2251.MatchingRuleAssertion)]

/-- `Filter ::=`, changed or supplied -/
def Filter : Ty :=
  CHOICE [
    mandatory "and" (implicit .context 0 (SET_OF Built.Rfc2251.Filter2)),
    mandatory "or" (implicit .context 1 (SET_OF Built.Rfc2251.Filter2)),
    mandatory "not" (implicit .context 2 Built.Rfc2251.Filter2),
    mandatory "equalityMatch" (implicit .context 3 Std.Rfc2251.AttributeValueAssertion),
    mandatory "substrings" (implicit .context 4 Std.Rfc2251.SubstringFilter),
    mandatory "greaterOrEqual" (implicit .context 5 Std.Rfc2251.AttributeValueAssertion),
    mandatory "lessOrEqual" (implicit .context 6 Std.Rfc2251.AttributeValueAssertion),
    mandatory "present" (implicit .context 7 Std.Rfc2251.AttributeDescription),
    mandatory "approxMatch" (implicit .context 8 Std.Rfc2251.AttributeValueAssertion),
    mandatory "extensibleMatch" (implicit .context 9 Std.Rfc2251.MatchingRuleAssertion)]

/-- `SearchRequest ::=` -/
def SearchRequest : Ty :=
  implicit .application 3 (SEQUENCE [
    mandatory "baseObject" Std.Rfc2251.LDAPDN,
    mandatory "scope" (named [("baseObject", 0), ("singleLevel", 1), ("wholeSubtree", 2)] ENUMERATED),
    mandatory "derefAliases" (named [("neverDerefAliases", 0), ("derefInSearching", 1), ("derefFindingBaseObj", 2), ("derefAlways", 3)] ENUMERATED),
    mandatory "sizeLimit" (constrained (RANGE 0 2147483647) INTEGER),
    mandatory "timeLimit" (constrained (RANGE 0 2147483647) INTEGER),
    mandatory "typesOnly" BOOLEAN,
    mandatory "filter" Built.Rfc2251.Filter,
    mandatory "attributes" Std.Rfc2251.AttributeDescriptionList])

/-- `SearchResultDone ::=` -/
def SearchResultDone : Ty :=
  implicit .application 5 Built.Rfc2251.LDAPResult

/-- `ModifyResponse ::=` -/
def ModifyResponse : Ty :=
  implicit .application 7 Built.Rfc2251.LDAPResult

/-- `AddResponse ::=` -/
def AddResponse : Ty :=
  implicit .application 9 Built.Rfc2251.LDAPResult

/-- `DelRequest ::=`, changed or supplied -/
def DelRequest : Ty :=
  implicit .application 10 Built.Rfc2251.LDAPResult

/-- `DelResponse ::=` -/
def DelResponse : Ty :=
  implicit .application 11 Built.Rfc2251.LDAPResult

/-- `ModifyDNResponse ::=` -/
def ModifyDNResponse : Ty :=
  implicit .application 13 Built.Rfc2251.LDAPResult

/-- `CompareResponse ::=` -/
def CompareResponse : Ty :=
  implicit .application 15 Built.Rfc2251.LDAPResult

/-- `AbandonRequest ::=`, changed or supplied -/
def AbandonRequest : Ty :=
  implicit .application 16 Built.Rfc2251.LDAPResult

/-- `ExtendedResponse ::=` -/
def ExtendedResponse : Ty :=
  implicit .application 24 (SEQUENCE [
    mandatory "resultCode" (named [("success", 0), ("operationsError", 1), ("protocolError", 2), ("timeLimitExceeded", 3), ("sizeLimitExceeded", 4), ("compareFalse", 5), ("compareTrue", 6), ("authMethodNotSupported", 7), ("strongAuthRequired", 8), ("reserved-9", 9), ("referral", 10), ("adminLimitExceeded", 11), ("unavailableCriticalExtension", 12), ("confidentialityRequired", 13), ("saslBindInProgress", 14), ("noSuchAttribute", 16), ("undefinedAttributeType", 17), ("inappropriateMatching", 18), ("constraintViolation", 19), ("attributeOrValueExists", 20), ("invalidAttributeSyntax", 21), ("noSuchObject", 32), ("aliasProblem", 33), ("invalidDNSyntax", 34), ("reserved-35", 35), ("aliasDereferencingProblem", 36), ("inappropriateAuthentication", 48), ("invalidCredentials", 49), ("insufficientAccessRights", 50), ("busy", 51), ("unavailable", 52), ("unwillingToPerform", 53), ("loopDetect", 54), ("namingViolation", 64), ("objectClassViolation", 65), ("notAllowedOnNonLeaf", 66), ("notAllowedOnRDN", 67), ("entryAlreadyExists", 68), ("objectClassModsProhibited", 69), ("reserved-70", 70), ("affectsMultipleDSAs", 71), ("other", 80), ("reserved-81", 81), ("reserved-82", 82), ("reserved-83", 83), ("reserved-84", 84), ("reserved-85", 85), ("reserved-86", 86), ("reserved-87", 87), ("reserved-88", 88), ("reserved-89", 89), ("reserved-90", 90)] ENUMERATED),
    mandatory "matchedDN" Std.Rfc2251.LDAPDN,
    mandatory "errorMessage" Std.Rfc2251.LDAPString,
    optional "referral" (implicit .context 3 Std.Rfc2251.Referral),
    optional "responseName" (implicit .context 10 Std.Rfc2251.LDAPOID),
    optional "response" (implicit .context 11 OCTET_STRING)])

/-- `LDAPMessage ::=` -/
def LDAPMessage : Ty :=
  SEQUENCE [
    mandatory "messageID" Std.Rfc2251.MessageID,
    mandatory "protocolOp" (CHOICE [
      mandatory "bindRequest" Built.Rfc2251.BindRequest,
      mandatory "bindResponse" Built.Rfc2251.BindResponse,
      mandatory "unbindRequest" Built.Rfc2251.UnbindRequest,
      mandatory "searchRequest" Built.Rfc2251.SearchRequest,
      mandatory "searchResEntry" Std.Rfc2251.SearchResultEntry,
      mandatory "searchResDone" Built.Rfc2251.SearchResultDone,
      mandatory "searchResRef" Std.Rfc2251.SearchResultReference,
      mandatory "modifyRequest" Std.Rfc2251.ModifyRequest,
      mandatory "modifyResponse" Built.Rfc2251.ModifyResponse,
      mandatory "addRequest" Std.Rfc2251.AddRequest,
      mandatory "addResponse" Built.Rfc2251.AddResponse,
      mandatory "delRequest" Built.Rfc2251.DelRequest,
      mandatory "delResponse" Built.Rfc2251.DelResponse,
      mandatory "modDNRequest" Std.Rfc2251.ModifyDNRequest,
      mandatory "modDNResponse" Built.Rfc2251.ModifyDNResponse,
      mandatory "compareRequest" Std.Rfc2251.CompareRequest,
      mandatory "compareResponse" Built.Rfc2251.CompareResponse,
      mandatory "abandonRequest" Built.Rfc2251.AbandonRequest,
      mandatory "extendedReq" Std.Rfc2251.ExtendedRequest,
      mandatory "extendedResp" Built.Rfc2251.ExtendedResponse]),
    optional "controls" (implicit .context 0 Std.Rfc2251.Controls)]

def description : Description :=
  ⟨Verif.Rfc2251.asModule,
   [⟨"rfc2251.LDAPString", Verif.Rfc2251.LDAPString, Std.Rfc2251.LDAPString⟩,
    ⟨"rfc2251.LDAPOID", Verif.Rfc2251.LDAPOID, Std.Rfc2251.LDAPOID⟩,
    ⟨"rfc2251.LDAPDN", Verif.Rfc2251.LDAPDN, Std.Rfc2251.LDAPDN⟩,
    ⟨"rfc2251.RelativeLDAPDN", Verif.Rfc2251.RelativeLDAPDN, Std.Rfc2251.RelativeLDAPDN⟩,
    ⟨"rfc2251.AttributeType", Verif.Rfc2251.AttributeType, Std.Rfc2251.AttributeType⟩,
    ⟨"rfc2251.AttributeDescription", Verif.Rfc2251.AttributeDescription, Std.Rfc2251.AttributeDescription⟩,
    ⟨"rfc2251.AttributeDescriptionList", Verif.Rfc2251.AttributeDescriptionList, Std.Rfc2251.AttributeDescriptionList⟩,
    ⟨"rfc2251.AttributeValue", Verif.Rfc2251.AttributeValue, Std.Rfc2251.AttributeValue⟩,
    ⟨"rfc2251.AssertionValue", Verif.Rfc2251.AssertionValue, Std.Rfc2251.AssertionValue⟩,
    ⟨"rfc2251.AttributeValueAssertion", Verif.Rfc2251.AttributeValueAssertion, Std.Rfc2251.AttributeValueAssertion⟩,
    ⟨"rfc2251.Attribute", Verif.Rfc2251.Attribute, Std.Rfc2251.Attribute⟩,
    ⟨"rfc2251.MatchingRuleId", Verif.Rfc2251.MatchingRuleId, Std.Rfc2251.MatchingRuleId⟩,
    ⟨"rfc2251.Control", Verif.Rfc2251.Control, Std.Rfc2251.Control⟩,
    ⟨"rfc2251.Controls", Verif.Rfc2251.Controls, Std.Rfc2251.Controls⟩,
    ⟨"rfc2251.LDAPURL", Verif.Rfc2251.LDAPURL, Std.Rfc2251.LDAPURL⟩,
    ⟨"rfc2251.Referral", Verif.Rfc2251.Referral, Std.Rfc2251.Referral⟩,
    ⟨"rfc2251.SaslCredentials", Verif.Rfc2251.SaslCredentials, Std.Rfc2251.SaslCredentials⟩,
    ⟨"rfc2251.AuthenticationChoice", Verif.Rfc2251.AuthenticationChoice, Built.Rfc2251.AuthenticationChoice⟩,
    ⟨"rfc2251.BindRequest", Verif.Rfc2251.BindRequest, Built.Rfc2251.BindRequest⟩,
    ⟨"rfc2251.PartialAttributeList", Verif.Rfc2251.PartialAttributeList, Std.Rfc2251.PartialAttributeList⟩,
    ⟨"rfc2251.SearchResultEntry", Verif.Rfc2251.SearchResultEntry, Std.Rfc2251.SearchResultEntry⟩,
    ⟨"rfc2251.MatchingRuleAssertion", Verif.Rfc2251.MatchingRuleAssertion, Std.Rfc2251.MatchingRuleAssertion⟩,
    ⟨"rfc2251.SubstringFilter", Verif.Rfc2251.SubstringFilter, Std.Rfc2251.SubstringFilter⟩,
    ⟨"rfc2251.Filter3", Verif.Rfc2251.Filter3, Built.Rfc2251.Filter3⟩,
    ⟨"rfc2251.Filter2", Verif.Rfc2251.Filter2, Built.Rfc2251.Filter2⟩,
    ⟨"rfc2251.Filter", Verif.Rfc2251.Filter, Built.Rfc2251.Filter⟩,
    ⟨"rfc2251.SearchRequest", Verif.Rfc2251.SearchRequest, Built.Rfc2251.SearchRequest⟩,
    ⟨"rfc2251.UnbindRequest", Verif.Rfc2251.UnbindRequest, Built.Rfc2251.UnbindRequest⟩,
    ⟨"rfc2251.BindResponse", Verif.Rfc2251.BindResponse, Built.Rfc2251.BindResponse⟩,
    ⟨"rfc2251.LDAPResult", Verif.Rfc2251.LDAPResult, Built.Rfc2251.LDAPResult⟩,
    ⟨"rfc2251.SearchResultReference", Verif.Rfc2251.SearchResultReference, Std.Rfc2251.SearchResultReference⟩,
    ⟨"rfc2251.SearchResultDone", Verif.Rfc2251.SearchResultDone, Built.Rfc2251.SearchResultDone⟩,
    ⟨"rfc2251.AttributeTypeAndValues", Verif.Rfc2251.AttributeTypeAndValues, Std.Rfc2251.AttributeTypeAndValues⟩,
    ⟨"rfc2251.ModifyRequest", Verif.Rfc2251.ModifyRequest, Std.Rfc2251.ModifyRequest⟩,
    ⟨"rfc2251.ModifyResponse", Verif.Rfc2251.ModifyResponse, Built.Rfc2251.ModifyResponse⟩,
    ⟨"rfc2251.AttributeList", Verif.Rfc2251.AttributeList, Std.Rfc2251.AttributeList⟩,
    ⟨"rfc2251.AddRequest", Verif.Rfc2251.AddRequest, Std.Rfc2251.AddRequest⟩,
    ⟨"rfc2251.AddResponse", Verif.Rfc2251.AddResponse, Built.Rfc2251.AddResponse⟩,
    ⟨"rfc2251.DelRequest", Verif.Rfc2251.DelRequest, Built.Rfc2251.DelRequest⟩,
    ⟨"rfc2251.DelResponse", Verif.Rfc2251.DelResponse, Built.Rfc2251.DelResponse⟩,
    ⟨"rfc2251.ModifyDNRequest", Verif.Rfc2251.ModifyDNRequest, Std.Rfc2251.ModifyDNRequest⟩,
    ⟨"rfc2251.ModifyDNResponse", Verif.Rfc2251.ModifyDNResponse, Built.Rfc2251.ModifyDNResponse⟩,
    ⟨"rfc2251.CompareRequest", Verif.Rfc2251.CompareRequest, Std.Rfc2251.CompareRequest⟩,
    ⟨"rfc2251.CompareResponse", Verif.Rfc2251.CompareResponse, Built.Rfc2251.CompareResponse⟩,
    ⟨"rfc2251.AbandonRequest", Verif.Rfc2251.AbandonRequest, Built.Rfc2251.AbandonRequest⟩,
    ⟨"rfc2251.ExtendedRequest", Verif.Rfc2251.ExtendedRequest, Std.Rfc2251.ExtendedRequest⟩,
    ⟨"rfc2251.ExtendedResponse", Verif.Rfc2251.ExtendedResponse, Built.Rfc2251.ExtendedResponse⟩,
    ⟨"rfc2251.MessageID", Verif.Rfc2251.MessageID, Std.Rfc2251.MessageID⟩,
    ⟨"rfc2251.LDAPMessage", Verif.Rfc2251.LDAPMessage, Built.Rfc2251.LDAPMessage⟩]⟩

end Rfc2251
end Built
end Verif
