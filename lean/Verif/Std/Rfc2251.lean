import Verif.Spec.Grade
import Verif.Gen.Rfc2251

/-! The ASN.1 of tools/std/rfc2251.asn1 (generated by tools/stdgen.py). -/

namespace Verif
namespace Std
namespace Rfc2251

open Asn1 Spec.X680

/-- `MessageID ::=` -/
def MessageID : Ty :=
  constrained (RANGE 0 2147483647) INTEGER

/-- `LDAPString ::=` -/
def LDAPString : Ty :=
  OCTET_STRING

/-- `LDAPDN ::=` -/
def LDAPDN : Ty :=
  LDAPString

/-- `SaslCredentials ::=` -/
def SaslCredentials : Ty :=
  SEQUENCE [
    mandatory "mechanism" LDAPString,
    optional "credentials" OCTET_STRING]

/-- `AuthenticationChoice ::=` -/
def AuthenticationChoice : Ty :=
  CHOICE [
    mandatory "simple" (implicit .context 0 OCTET_STRING),
    mandatory "sasl" (implicit .context 3 SaslCredentials)]

/-- `BindRequest ::=` -/
def BindRequest : Ty :=
  implicit .application 0 (SEQUENCE [
    mandatory "version" (constrained (RANGE 1 127) INTEGER),
    mandatory "name" LDAPDN,
    mandatory "authentication" AuthenticationChoice])

/-- `LDAPURL ::=` -/
def LDAPURL : Ty :=
  LDAPString

/-- `Referral ::=` -/
def Referral : Ty :=
  SEQUENCE_OF LDAPURL

/-- `LDAPResult ::=` -/
def LDAPResult : Ty :=
  SEQUENCE [
    mandatory "resultCode" (named [("success", 0), ("operationsError", 1), ("protocolError", 2), ("timeLimitExceeded", 3), ("sizeLimitExceeded", 4), ("compareFalse", 5), ("compareTrue", 6), ("authMethodNotSupported", 7), ("strongAuthRequired", 8), ("referral", 10), ("adminLimitExceeded", 11), ("unavailableCriticalExtension", 12), ("confidentialityRequired", 13), ("saslBindInProgress", 14), ("noSuchAttribute", 16), ("undefinedAttributeType", 17), ("inappropriateMatching", 18), ("constraintViolation", 19), ("attributeOrValueExists", 20), ("invalidAttributeSyntax", 21), ("noSuchObject", 32), ("aliasProblem", 33), ("invalidDNSyntax", 34), ("aliasDereferencingProblem", 36), ("inappropriateAuthentication", 48), ("invalidCredentials", 49), ("insufficientAccessRights", 50), ("busy", 51), ("unavailable", 52), ("unwillingToPerform", 53), ("loopDetect", 54), ("namingViolation", 64), ("objectClassViolation", 65), ("notAllowedOnNonLeaf", 66), ("notAllowedOnRDN", 67), ("entryAlreadyExists", 68), ("objectClassModsProhibited", 69), ("affectsMultipleDSAs", 71), ("other", 80)] ENUMERATED),
    mandatory "matchedDN" LDAPDN,
    mandatory "errorMessage" LDAPString,
    optional "referral" (implicit .context 3 Referral)]

/-- `BindResponse ::=` -/
def BindResponse : Ty :=
  implicit .application 1 (SEQUENCE [
    mandatory "resultCode" (named [("success", 0), ("operationsError", 1), ("protocolError", 2), ("timeLimitExceeded", 3), ("sizeLimitExceeded", 4), ("compareFalse", 5), ("compareTrue", 6), ("authMethodNotSupported", 7), ("strongAuthRequired", 8), ("referral", 10), ("adminLimitExceeded", 11), ("unavailableCriticalExtension", 12), ("confidentialityRequired", 13), ("saslBindInProgress", 14), ("noSuchAttribute", 16), ("undefinedAttributeType", 17), ("inappropriateMatching", 18), ("constraintViolation", 19), ("attributeOrValueExists", 20), ("invalidAttributeSyntax", 21), ("noSuchObject", 32), ("aliasProblem", 33), ("invalidDNSyntax", 34), ("aliasDereferencingProblem", 36), ("inappropriateAuthentication", 48), ("invalidCredentials", 49), ("insufficientAccessRights", 50), ("busy", 51), ("unavailable", 52), ("unwillingToPerform", 53), ("loopDetect", 54), ("namingViolation", 64), ("objectClassViolation", 65), ("notAllowedOnNonLeaf", 66), ("notAllowedOnRDN", 67), ("entryAlreadyExists", 68), ("objectClassModsProhibited", 69), ("affectsMultipleDSAs", 71), ("other", 80)] ENUMERATED),
    mandatory "matchedDN" LDAPDN,
    mandatory "errorMessage" LDAPString,
    optional "referral" (implicit .context 3 Referral),
    optional "serverSaslCreds" (implicit .context 7 OCTET_STRING)])

/-- `UnbindRequest ::=` -/
def UnbindRequest : Ty :=
  implicit .application 2 NULL

/-- `AttributeDescription ::=` -/
def AttributeDescription : Ty :=
  LDAPString

/-- `AttributeDescriptionList ::=` -/
def AttributeDescriptionList : Ty :=
  SEQUENCE_OF AttributeDescription

/-- `SearchRequest ::=` -/
def SearchRequest : Ty :=
  implicit .application 3 (SEQUENCE [
    mandatory "baseObject" LDAPDN,
    mandatory "scope" (named [("baseObject", 0), ("singleLevel", 1), ("wholeSubtree", 2)] ENUMERATED),
    mandatory "derefAliases" (named [("neverDerefAliases", 0), ("derefInSearching", 1), ("derefFindingBaseObj", 2), ("derefAlways", 3)] ENUMERATED),
    mandatory "sizeLimit" (constrained (RANGE 0 2147483647) INTEGER),
    mandatory "timeLimit" (constrained (RANGE 0 2147483647) INTEGER),
    mandatory "typesOnly" BOOLEAN,
    mandatory "filter" Verif.Rfc2251.Filter.call.ty,
    mandatory "attributes" AttributeDescriptionList])

/-- `AttributeValue ::=` -/
def AttributeValue : Ty :=
  OCTET_STRING

/-- `PartialAttributeList ::=` -/
def PartialAttributeList : Ty :=
  SEQUENCE_OF (SEQUENCE [
    mandatory "type" AttributeDescription,
    mandatory "vals" (SET_OF AttributeValue)])

/-- `SearchResultEntry ::=` -/
def SearchResultEntry : Ty :=
  implicit .application 4 (SEQUENCE [
    mandatory "objectName" LDAPDN,
    mandatory "attributes" PartialAttributeList])

/-- `SearchResultDone ::=` -/
def SearchResultDone : Ty :=
  implicit .application 5 LDAPResult

/-- `SearchResultReference ::=` -/
def SearchResultReference : Ty :=
  implicit .application 19 (SEQUENCE_OF LDAPURL)

/-- `AttributeTypeAndValues ::=` -/
def AttributeTypeAndValues : Ty :=
  SEQUENCE [
    mandatory "type" AttributeDescription,
    mandatory "vals" (SET_OF AttributeValue)]

/-- `ModifyRequest ::=` -/
def ModifyRequest : Ty :=
  implicit .application 6 (SEQUENCE [
    mandatory "object" LDAPDN,
    mandatory "modification" (SEQUENCE_OF (SEQUENCE [
      mandatory "operation" (named [("add", 0), ("delete", 1), ("replace", 2)] ENUMERATED),
      mandatory "modification" AttributeTypeAndValues]))])

/-- `ModifyResponse ::=` -/
def ModifyResponse : Ty :=
  implicit .application 7 LDAPResult

/-- `AttributeList ::=` -/
def AttributeList : Ty :=
  SEQUENCE_OF (SEQUENCE [
    mandatory "type" AttributeDescription,
    mandatory "vals" (SET_OF AttributeValue)])

/-- `AddRequest ::=` -/
def AddRequest : Ty :=
  implicit .application 8 (SEQUENCE [
    mandatory "entry" LDAPDN,
    mandatory "attributes" AttributeList])

/-- `AddResponse ::=` -/
def AddResponse : Ty :=
  implicit .application 9 LDAPResult

/-- `DelRequest ::=` -/
def DelRequest : Ty :=
  implicit .application 10 LDAPDN

/-- `DelResponse ::=` -/
def DelResponse : Ty :=
  implicit .application 11 LDAPResult

/-- `RelativeLDAPDN ::=` -/
def RelativeLDAPDN : Ty :=
  LDAPString

/-- `ModifyDNRequest ::=` -/
def ModifyDNRequest : Ty :=
  implicit .application 12 (SEQUENCE [
    mandatory "entry" LDAPDN,
    mandatory "newrdn" RelativeLDAPDN,
    mandatory "deleteoldrdn" BOOLEAN,
    optional "newSuperior" (implicit .context 0 LDAPDN)])

/-- `ModifyDNResponse ::=` -/
def ModifyDNResponse : Ty :=
  implicit .application 13 LDAPResult

/-- `AssertionValue ::=` -/
def AssertionValue : Ty :=
  OCTET_STRING

/-- `AttributeValueAssertion ::=` -/
def AttributeValueAssertion : Ty :=
  SEQUENCE [
    mandatory "attributeDesc" AttributeDescription,
    mandatory "assertionValue" AssertionValue]

/-- `CompareRequest ::=` -/
def CompareRequest : Ty :=
  implicit .application 14 (SEQUENCE [
    mandatory "entry" LDAPDN,
    mandatory "ava" AttributeValueAssertion])

/-- `CompareResponse ::=` -/
def CompareResponse : Ty :=
  implicit .application 15 LDAPResult

/-- `AbandonRequest ::=` -/
def AbandonRequest : Ty :=
  implicit .application 16 MessageID

/-- `LDAPOID ::=` -/
def LDAPOID : Ty :=
  OCTET_STRING

/-- `ExtendedRequest ::=` -/
def ExtendedRequest : Ty :=
  implicit .application 23 (SEQUENCE [
    mandatory "requestName" (implicit .context 0 LDAPOID),
    optional "requestValue" (implicit .context 1 OCTET_STRING)])

/-- `ExtendedResponse ::=` -/
def ExtendedResponse : Ty :=
  implicit .application 24 (SEQUENCE [
    mandatory "resultCode" (named [("success", 0), ("operationsError", 1), ("protocolError", 2), ("timeLimitExceeded", 3), ("sizeLimitExceeded", 4), ("compareFalse", 5), ("compareTrue", 6), ("authMethodNotSupported", 7), ("strongAuthRequired", 8), ("referral", 10), ("adminLimitExceeded", 11), ("unavailableCriticalExtension", 12), ("confidentialityRequired", 13), ("saslBindInProgress", 14), ("noSuchAttribute", 16), ("undefinedAttributeType", 17), ("inappropriateMatching", 18), ("constraintViolation", 19), ("attributeOrValueExists", 20), ("invalidAttributeSyntax", 21), ("noSuchObject", 32), ("aliasProblem", 33), ("invalidDNSyntax", 34), ("aliasDereferencingProblem", 36), ("inappropriateAuthentication", 48), ("invalidCredentials", 49), ("insufficientAccessRights", 50), ("busy", 51), ("unavailable", 52), ("unwillingToPerform", 53), ("loopDetect", 54), ("namingViolation", 64), ("objectClassViolation", 65), ("notAllowedOnNonLeaf", 66), ("notAllowedOnRDN", 67), ("entryAlreadyExists", 68), ("objectClassModsProhibited", 69), ("affectsMultipleDSAs", 71), ("other", 80)] ENUMERATED),
    mandatory "matchedDN" LDAPDN,
    mandatory "errorMessage" LDAPString,
    optional "referral" (implicit .context 3 Referral),
    optional "responseName" (implicit .context 10 LDAPOID),
    optional "response" (implicit .context 11 OCTET_STRING)])

/-- `Control ::=` -/
def Control : Ty :=
  SEQUENCE [
    mandatory "controlType" LDAPOID,
    default "criticality" BOOLEAN (.int 0),
    optional "controlValue" OCTET_STRING]

/-- `Controls ::=` -/
def Controls : Ty :=
  SEQUENCE_OF Control

/-- `LDAPMessage ::=` -/
def LDAPMessage : Ty :=
  SEQUENCE [
    mandatory "messageID" MessageID,
    mandatory "protocolOp" (CHOICE [
      mandatory "bindRequest" BindRequest,
      mandatory "bindResponse" BindResponse,
      mandatory "unbindRequest" UnbindRequest,
      mandatory "searchRequest" SearchRequest,
      mandatory "searchResEntry" SearchResultEntry,
      mandatory "searchResDone" SearchResultDone,
      mandatory "searchResRef" SearchResultReference,
      mandatory "modifyRequest" ModifyRequest,
      mandatory "modifyResponse" ModifyResponse,
      mandatory "addRequest" AddRequest,
      mandatory "addResponse" AddResponse,
      mandatory "delRequest" DelRequest,
      mandatory "delResponse" DelResponse,
      mandatory "modDNRequest" ModifyDNRequest,
      mandatory "modDNResponse" ModifyDNResponse,
      mandatory "compareRequest" CompareRequest,
      mandatory "compareResponse" CompareResponse,
      mandatory "abandonRequest" AbandonRequest,
      mandatory "extendedReq" ExtendedRequest,
      mandatory "extendedResp" ExtendedResponse]),
    optional "controls" (implicit .context 0 Controls)]

/-- `AttributeType ::=` -/
def AttributeType : Ty :=
  LDAPString

/-- `Attribute ::=` -/
def Attribute : Ty :=
  SEQUENCE [
    mandatory "type" AttributeDescription,
    mandatory "vals" (SET_OF AttributeValue)]

/-- `MatchingRuleId ::=` -/
def MatchingRuleId : Ty :=
  LDAPString

/-- `SubstringFilter ::=` -/
def SubstringFilter : Ty :=
  SEQUENCE [
    mandatory "type" AttributeDescription,
    mandatory "substrings" (SEQUENCE_OF (CHOICE [
      mandatory "initial" (implicit .context 0 LDAPString),
      mandatory "any" (implicit .context 1 LDAPString),
      mandatory "final" (implicit .context 2 LDAPString)]))]

/-- `MatchingRuleAssertion ::=` -/
def MatchingRuleAssertion : Ty :=
  SEQUENCE [
    optional "matchingRule" (implicit .context 1 MatchingRuleId),
    optional "type" (implicit .context 2 AttributeDescription),
    mandatory "matchValue" (implicit .context 3 AssertionValue),
    default "dnAttributes" (implicit .context 4 BOOLEAN) (.int 0)]

/-- Classes of rfc2251.py and the types of the standard they implement. -/
def entries : List Entry :=
  [⟨"rfc2251.LDAPString", Verif.Rfc2251.LDAPString, LDAPString, .same, false⟩,
   ⟨"rfc2251.LDAPOID", Verif.Rfc2251.LDAPOID, LDAPOID, .same, false⟩,
   ⟨"rfc2251.LDAPDN", Verif.Rfc2251.LDAPDN, LDAPDN, .same, false⟩,
   ⟨"rfc2251.RelativeLDAPDN", Verif.Rfc2251.RelativeLDAPDN, RelativeLDAPDN, .same, false⟩,
   ⟨"rfc2251.AttributeType", Verif.Rfc2251.AttributeType, AttributeType, .same, false⟩,
   ⟨"rfc2251.AttributeDescription", Verif.Rfc2251.AttributeDescription, AttributeDescription, .same, false⟩,
   ⟨"rfc2251.AttributeDescriptionList", Verif.Rfc2251.AttributeDescriptionList, AttributeDescriptionList, .same, false⟩,
   ⟨"rfc2251.AttributeValue", Verif.Rfc2251.AttributeValue, AttributeValue, .same, false⟩,
   ⟨"rfc2251.AssertionValue", Verif.Rfc2251.AssertionValue, AssertionValue, .same, false⟩,
   ⟨"rfc2251.AttributeValueAssertion", Verif.Rfc2251.AttributeValueAssertion, AttributeValueAssertion, .same, false⟩,
   ⟨"rfc2251.Attribute", Verif.Rfc2251.Attribute, Attribute, .same, false⟩,
   ⟨"rfc2251.MatchingRuleId", Verif.Rfc2251.MatchingRuleId, MatchingRuleId, .same, false⟩,
   ⟨"rfc2251.Control", Verif.Rfc2251.Control, Control, .same, false⟩,
   ⟨"rfc2251.Controls", Verif.Rfc2251.Controls, Controls, .same, false⟩,
   ⟨"rfc2251.LDAPURL", Verif.Rfc2251.LDAPURL, LDAPURL, .same, false⟩,
   ⟨"rfc2251.Referral", Verif.Rfc2251.Referral, Referral, .same, false⟩,
   ⟨"rfc2251.SaslCredentials", Verif.Rfc2251.SaslCredentials, SaslCredentials, .same, false⟩,
   ⟨"rfc2251.AuthenticationChoice", Verif.Rfc2251.AuthenticationChoice, AuthenticationChoice, .widened, true⟩,
   ⟨"rfc2251.BindRequest", Verif.Rfc2251.BindRequest, BindRequest, .widened, true⟩,
   ⟨"rfc2251.PartialAttributeList", Verif.Rfc2251.PartialAttributeList, PartialAttributeList, .same, false⟩,
   ⟨"rfc2251.SearchResultEntry", Verif.Rfc2251.SearchResultEntry, SearchResultEntry, .same, false⟩,
   ⟨"rfc2251.MatchingRuleAssertion", Verif.Rfc2251.MatchingRuleAssertion, MatchingRuleAssertion, .same, false⟩,
   ⟨"rfc2251.SubstringFilter", Verif.Rfc2251.SubstringFilter, SubstringFilter, .same, false⟩,
   ⟨"rfc2251.SearchRequest", Verif.Rfc2251.SearchRequest, SearchRequest, .same, false⟩,
   ⟨"rfc2251.UnbindRequest", Verif.Rfc2251.UnbindRequest, UnbindRequest, (.rewritten (.null)), false⟩,
   ⟨"rfc2251.BindResponse", Verif.Rfc2251.BindResponse, BindResponse, .same, true⟩,
   ⟨"rfc2251.LDAPResult", Verif.Rfc2251.LDAPResult, LDAPResult, .same, true⟩,
   ⟨"rfc2251.SearchResultReference", Verif.Rfc2251.SearchResultReference, SearchResultReference, .same, false⟩,
   ⟨"rfc2251.SearchResultDone", Verif.Rfc2251.SearchResultDone, SearchResultDone, .same, true⟩,
   ⟨"rfc2251.AttributeTypeAndValues", Verif.Rfc2251.AttributeTypeAndValues, AttributeTypeAndValues, .same, false⟩,
   ⟨"rfc2251.ModifyRequest", Verif.Rfc2251.ModifyRequest, ModifyRequest, .same, false⟩,
   ⟨"rfc2251.ModifyResponse", Verif.Rfc2251.ModifyResponse, ModifyResponse, .same, true⟩,
   ⟨"rfc2251.AttributeList", Verif.Rfc2251.AttributeList, AttributeList, .same, false⟩,
   ⟨"rfc2251.AddRequest", Verif.Rfc2251.AddRequest, AddRequest, .same, false⟩,
   ⟨"rfc2251.AddResponse", Verif.Rfc2251.AddResponse, AddResponse, .same, true⟩,
   ⟨"rfc2251.DelRequest", Verif.Rfc2251.DelRequest, DelRequest, (.refused [74, 0]), true⟩,
   ⟨"rfc2251.DelResponse", Verif.Rfc2251.DelResponse, DelResponse, .same, true⟩,
   ⟨"rfc2251.ModifyDNRequest", Verif.Rfc2251.ModifyDNRequest, ModifyDNRequest, .same, false⟩,
   ⟨"rfc2251.ModifyDNResponse", Verif.Rfc2251.ModifyDNResponse, ModifyDNResponse, .same, true⟩,
   ⟨"rfc2251.CompareRequest", Verif.Rfc2251.CompareRequest, CompareRequest, .same, false⟩,
   ⟨"rfc2251.CompareResponse", Verif.Rfc2251.CompareResponse, CompareResponse, .same, true⟩,
   ⟨"rfc2251.AbandonRequest", Verif.Rfc2251.AbandonRequest, AbandonRequest, (.refused [80, 1, 0]), true⟩,
   ⟨"rfc2251.ExtendedRequest", Verif.Rfc2251.ExtendedRequest, ExtendedRequest, .same, false⟩,
   ⟨"rfc2251.ExtendedResponse", Verif.Rfc2251.ExtendedResponse, ExtendedResponse, .same, true⟩,
   ⟨"rfc2251.MessageID", Verif.Rfc2251.MessageID, MessageID, .same, false⟩,
   ⟨"rfc2251.LDAPMessage", Verif.Rfc2251.LDAPMessage, LDAPMessage, (.refused [48, 5, 2, 1, 0, 74, 0]), true⟩]

/-- Classes of rfc2251.py the transcription of the standard has no type for. -/
def beyond : List String :=
  ["rfc2251.Filter3",
   "rfc2251.Filter2",
   "rfc2251.Filter"]

/-- Constants of rfc2251.py and the values the standard gives them. -/
def constants : List Constant :=
  [⟨"rfc2251.maxInt", Verif.Rfc2251.maxInt, INTEGER, .int 2147483647, true⟩]

/-- Constants of rfc2251.py the transcription of the standard has no value for. -/
def others : List String :=
  []

def standard : Standard := ⟨Verif.Rfc2251.asModule, entries, beyond, constants, others⟩

end Rfc2251
end Std
end Verif
