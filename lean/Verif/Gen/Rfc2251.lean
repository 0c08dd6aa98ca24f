import Verif.Py.Obj

/-! Transcription of /repo/pyasn1_modules/rfc2251.py (generated by tools/gen.py). -/

namespace Verif
namespace Rfc2251

/-- rfc2251.py:21 -/
def maxInt : Py.Obj :=
  (Py.univ.Integer.call.callInt 2147483647)

/-- rfc2251.py:24-25 `class LDAPString(univ.OctetString)` -/
def LDAPString : Py.Obj :=
  Py.univ.OctetString

/-- rfc2251.py:28-29 `class LDAPOID(univ.OctetString)` -/
def LDAPOID : Py.Obj :=
  Py.univ.OctetString

/-- rfc2251.py:32-33 `class LDAPDN(LDAPString)` -/
def LDAPDN : Py.Obj :=
  Rfc2251.LDAPString

/-- rfc2251.py:36-37 `class RelativeLDAPDN(LDAPString)` -/
def RelativeLDAPDN : Py.Obj :=
  Rfc2251.LDAPString

/-- rfc2251.py:40-41 `class AttributeType(LDAPString)` -/
def AttributeType : Py.Obj :=
  Rfc2251.LDAPString

/-- rfc2251.py:44-45 `class AttributeDescription(LDAPString)` -/
def AttributeDescription : Py.Obj :=
  Rfc2251.LDAPString

/-- rfc2251.py:48-49 `class AttributeDescriptionList(univ.SequenceOf)` -/
def AttributeDescriptionList : Py.Obj :=
  Py.univ.SequenceOf.setComponentTypeOf Rfc2251.AttributeDescription.call

/-- rfc2251.py:52-53 `class AttributeValue(univ.OctetString)` -/
def AttributeValue : Py.Obj :=
  Py.univ.OctetString

/-- rfc2251.py:56-57 `class AssertionValue(univ.OctetString)` -/
def AssertionValue : Py.Obj :=
  Py.univ.OctetString

/-- rfc2251.py:60-64 `class AttributeValueAssertion(univ.Sequence)` -/
def AttributeValueAssertion : Py.Obj :=
  Py.univ.Sequence.setComponentType (Py.NamedTypes [
    Py.NamedType "attributeDesc" Rfc2251.AttributeDescription.call,
    Py.NamedType "assertionValue" Rfc2251.AssertionValue.call])

/-- rfc2251.py:67-71 `class Attribute(univ.Sequence)` -/
def Attribute : Py.Obj :=
  Py.univ.Sequence.setComponentType (Py.NamedTypes [
    Py.NamedType "type" Rfc2251.AttributeDescription.call,
    Py.NamedType "vals" (Py.univ.SetOf.call.setComponentTypeOf Rfc2251.AttributeValue.call)])

/-- rfc2251.py:74-75 `class MatchingRuleId(LDAPString)` -/
def MatchingRuleId : Py.Obj :=
  Rfc2251.LDAPString

/-- rfc2251.py:78-83 `class Control(univ.Sequence)` -/
def Control : Py.Obj :=
  Py.univ.Sequence.setComponentType (Py.NamedTypes [
    Py.NamedType "controlType" Rfc2251.LDAPOID.call,
    Py.DefaultedNamedType "criticality" (Py.univ.Boolean.call.callStr "False"),
    Py.OptionalNamedType "controlValue" Py.univ.OctetString.call])

/-- rfc2251.py:86-87 `class Controls(univ.SequenceOf)` -/
def Controls : Py.Obj :=
  Py.univ.SequenceOf.setComponentTypeOf Rfc2251.Control.call

/-- rfc2251.py:90-91 `class LDAPURL(LDAPString)` -/
def LDAPURL : Py.Obj :=
  Rfc2251.LDAPString

/-- rfc2251.py:94-95 `class Referral(univ.SequenceOf)` -/
def Referral : Py.Obj :=
  Py.univ.SequenceOf.setComponentTypeOf Rfc2251.LDAPURL.call

/-- rfc2251.py:98-102 `class SaslCredentials(univ.Sequence)` -/
def SaslCredentials : Py.Obj :=
  Py.univ.Sequence.setComponentType (Py.NamedTypes [
    Py.NamedType "mechanism" Rfc2251.LDAPString.call,
    Py.OptionalNamedType "credentials" Py.univ.OctetString.call])

/-- rfc2251.py:105-115 `class AuthenticationChoice(univ.Choice)` -/
def AuthenticationChoice : Py.Obj :=
  Py.univ.Choice.setComponentType (Py.NamedTypes [
    Py.NamedType "simple" (Py.univ.OctetString.call.implicitTag (Py.Tag .context false 0)),
    Py.NamedType "reserved-1" (Py.univ.OctetString.call.implicitTag (Py.Tag .context false 1)),
    Py.NamedType "reserved-2" (Py.univ.OctetString.call.implicitTag (Py.Tag .context false 2)),
    Py.NamedType "sasl" (Rfc2251.SaslCredentials.call.implicitTag (Py.Tag .context false 3))])

/-- rfc2251.py:118-126 `class BindRequest(univ.Sequence)` -/
def BindRequest : Py.Obj :=
  (Py.univ.Sequence.setTagSet (Py.univ.Sequence.tagSet.tagImplicitly (Py.Tag .application true 0))).setComponentType (Py.NamedTypes [
    Py.NamedType "version" (Py.univ.Integer.call.addSubtypeSpec (Py.ValueRangeConstraint (.fin 1) (.fin 127))),
    Py.NamedType "name" Rfc2251.LDAPDN.call,
    Py.NamedType "authentication" Rfc2251.AuthenticationChoice.call])

/-- rfc2251.py:129-135 `class PartialAttributeList(univ.SequenceOf)` -/
def PartialAttributeList : Py.Obj :=
  Py.univ.SequenceOf.setComponentTypeOf (Py.univ.Sequence.call.setComponentType (Py.NamedTypes [
    Py.NamedType "type" Rfc2251.AttributeDescription.call,
    Py.NamedType "vals" (Py.univ.SetOf.call.setComponentTypeOf Rfc2251.AttributeValue.call)]))

/-- rfc2251.py:138-145 `class SearchResultEntry(univ.Sequence)` -/
def SearchResultEntry : Py.Obj :=
  (Py.univ.Sequence.setTagSet (Py.univ.Sequence.tagSet.tagImplicitly (Py.Tag .application true 4))).setComponentType (Py.NamedTypes [
    Py.NamedType "objectName" Rfc2251.LDAPDN.call,
    Py.NamedType "attributes" Rfc2251.PartialAttributeList.call])

/-- rfc2251.py:148-158 `class MatchingRuleAssertion(univ.Sequence)` -/
def MatchingRuleAssertion : Py.Obj :=
  Py.univ.Sequence.setComponentType (Py.NamedTypes [
    Py.OptionalNamedType "matchingRule" (Rfc2251.MatchingRuleId.call.implicitTag (Py.Tag .context false 1)),
    Py.OptionalNamedType "type" (Rfc2251.AttributeDescription.call.implicitTag (Py.Tag .context false 2)),
    Py.NamedType "matchValue" (Rfc2251.AssertionValue.call.implicitTag (Py.Tag .context false 3)),
    Py.DefaultedNamedType "dnAttributes" ((Py.univ.Boolean.call.callStr "False").implicitTag (Py.Tag .context false 4))])

/-- rfc2251.py:161-181 `class SubstringFilter(univ.Sequence)` -/
def SubstringFilter : Py.Obj :=
  Py.univ.Sequence.setComponentType (Py.NamedTypes [
    Py.NamedType "type" Rfc2251.AttributeDescription.call,
    Py.NamedType "substrings" (Py.univ.SequenceOf.call.setComponentTypeOf (Py.univ.Choice.call.setComponentType (Py.NamedTypes [
    Py.NamedType "initial" (Rfc2251.LDAPString.call.implicitTag (Py.Tag .context false 0)),
    Py.NamedType "any" (Rfc2251.LDAPString.call.implicitTag (Py.Tag .context false 1)),
    Py.NamedType "final" (Rfc2251.LDAPString.call.implicitTag (Py.Tag .context false 2))])))])

/-- rfc2251.py:186-202 `class Filter3(univ.Choice)` -/
def Filter3 : Py.Obj :=
  Py.univ.Choice.setComponentType (Py.NamedTypes [
    Py.NamedType "equalityMatch" (Rfc2251.AttributeValueAssertion.call.implicitTag (Py.Tag .context true 3)),
    Py.NamedType "substrings" (Rfc2251.SubstringFilter.call.implicitTag (Py.Tag .context true 4)),
    Py.NamedType "greaterOrEqual" (Rfc2251.AttributeValueAssertion.call.implicitTag (Py.Tag .context true 5)),
    Py.NamedType "lessOrEqual" (Rfc2251.AttributeValueAssertion.call.implicitTag (Py.Tag .context true 6)),
    Py.NamedType "present" (Rfc2251.AttributeDescription.call.implicitTag (Py.Tag .context false 7)),
    Py.NamedType "approxMatch" (Rfc2251.AttributeValueAssertion.call.implicitTag (Py.Tag .context true 8)),
    Py.NamedType "extensibleMatch" (Rfc2251.MatchingRuleAssertion.call.implicitTag (Py.Tag .context true 9))])

/-- rfc2251.py:205-227 `class Filter2(univ.Choice)` -/
def Filter2 : Py.Obj :=
  Py.univ.Choice.setComponentType (Py.NamedTypes [
    Py.NamedType "and" ((Py.univ.SetOf.call.setComponentTypeOf Rfc2251.Filter3.call).implicitTag (Py.Tag .context true 0)),
    Py.NamedType "or" ((Py.univ.SetOf.call.setComponentTypeOf Rfc2251.Filter3.call).implicitTag (Py.Tag .context true 1)),
    Py.NamedType "not" (Rfc2251.Filter3.call.implicitTag (Py.Tag .context true 2)),
    Py.NamedType "equalityMatch" (Rfc2251.AttributeValueAssertion.call.implicitTag (Py.Tag .context true 3)),
    Py.NamedType "substrings" (Rfc2251.SubstringFilter.call.implicitTag (Py.Tag .context true 4)),
    Py.NamedType "greaterOrEqual" (Rfc2251.AttributeValueAssertion.call.implicitTag (Py.Tag .context true 5)),
    Py.NamedType "lessOrEqual" (Rfc2251.AttributeValueAssertion.call.implicitTag (Py.Tag .context true 6)),
    Py.NamedType "present" (Rfc2251.AttributeDescription.call.implicitTag (Py.Tag .context false 7)),
    Py.NamedType "approxMatch" (Rfc2251.AttributeValueAssertion.call.implicitTag (Py.Tag .context true 8)),
    Py.NamedType "extensibleMatch" (Rfc2251.MatchingRuleAssertion.call.implicitTag (Py.Tag .context true 9))])

/-- rfc2251.py:230-252 `class Filter(univ.Choice)` -/
def Filter : Py.Obj :=
  Py.univ.Choice.setComponentType (Py.NamedTypes [
    Py.NamedType "and" ((Py.univ.SetOf.call.setComponentTypeOf Rfc2251.Filter2.call).implicitTag (Py.Tag .context true 0)),
    Py.NamedType "or" ((Py.univ.SetOf.call.setComponentTypeOf Rfc2251.Filter2.call).implicitTag (Py.Tag .context true 1)),
    Py.NamedType "not" (Rfc2251.Filter2.call.implicitTag (Py.Tag .context true 2)),
    Py.NamedType "equalityMatch" (Rfc2251.AttributeValueAssertion.call.implicitTag (Py.Tag .context true 3)),
    Py.NamedType "substrings" (Rfc2251.SubstringFilter.call.implicitTag (Py.Tag .context true 4)),
    Py.NamedType "greaterOrEqual" (Rfc2251.AttributeValueAssertion.call.implicitTag (Py.Tag .context true 5)),
    Py.NamedType "lessOrEqual" (Rfc2251.AttributeValueAssertion.call.implicitTag (Py.Tag .context true 6)),
    Py.NamedType "present" (Rfc2251.AttributeDescription.call.implicitTag (Py.Tag .context false 7)),
    Py.NamedType "approxMatch" (Rfc2251.AttributeValueAssertion.call.implicitTag (Py.Tag .context true 8)),
    Py.NamedType "extensibleMatch" (Rfc2251.MatchingRuleAssertion.call.implicitTag (Py.Tag .context true 9))])

/-- rfc2251.py:257-275 `class SearchRequest(univ.Sequence)` -/
def SearchRequest : Py.Obj :=
  (Py.univ.Sequence.setTagSet (Py.univ.Sequence.tagSet.tagImplicitly (Py.Tag .application true 3))).setComponentType (Py.NamedTypes [
    Py.NamedType "baseObject" Rfc2251.LDAPDN.call,
    Py.NamedType "scope" (Py.univ.Enumerated.call.setNamedValues (Py.NamedValues [("baseObject", 0), ("singleLevel", 1), ("wholeSubtree", 2)])),
    Py.NamedType "derefAliases" (Py.univ.Enumerated.call.setNamedValues (Py.NamedValues [("neverDerefAliases", 0), ("derefInSearching", 1), ("derefFindingBaseObj", 2), ("derefAlways", 3)])),
    Py.NamedType "sizeLimit" (Py.univ.Integer.call.addSubtypeSpec (Py.ValueRangeConstraint (.fin 0) Rfc2251.maxInt.bound)),
    Py.NamedType "timeLimit" (Py.univ.Integer.call.addSubtypeSpec (Py.ValueRangeConstraint (.fin 0) Rfc2251.maxInt.bound)),
    Py.NamedType "typesOnly" Py.univ.Boolean.call,
    Py.NamedType "filter" Rfc2251.Filter.call,
    Py.NamedType "attributes" Rfc2251.AttributeDescriptionList.call])

/-- rfc2251.py:278-281 `class UnbindRequest(univ.Null)` -/
def UnbindRequest : Py.Obj :=
  Py.univ.Null.setTagSet (Py.univ.Sequence.tagSet.tagImplicitly (Py.Tag .application false 2))

/-- rfc2251.py:284-317 `class BindResponse(univ.Sequence)` -/
def BindResponse : Py.Obj :=
  (Py.univ.Sequence.setTagSet (Py.univ.Sequence.tagSet.tagImplicitly (Py.Tag .application true 1))).setComponentType (Py.NamedTypes [
    Py.NamedType "resultCode" (Py.univ.Enumerated.call.setNamedValues (Py.NamedValues [("success", 0), ("operationsError", 1), ("protocolError", 2), ("timeLimitExceeded", 3), ("sizeLimitExceeded", 4), ("compareFalse", 5), ("compareTrue", 6), ("authMethodNotSupported", 7), ("strongAuthRequired", 8), ("reserved-9", 9), ("referral", 10), ("adminLimitExceeded", 11), ("unavailableCriticalExtension", 12), ("confidentialityRequired", 13), ("saslBindInProgress", 14), ("noSuchAttribute", 16), ("undefinedAttributeType", 17), ("inappropriateMatching", 18), ("constraintViolation", 19), ("attributeOrValueExists", 20), ("invalidAttributeSyntax", 21), ("noSuchObject", 32), ("aliasProblem", 33), ("invalidDNSyntax", 34), ("reserved-35", 35), ("aliasDereferencingProblem", 36), ("inappropriateAuthentication", 48), ("invalidCredentials", 49), ("insufficientAccessRights", 50), ("busy", 51), ("unavailable", 52), ("unwillingToPerform", 53), ("loopDetect", 54), ("namingViolation", 64), ("objectClassViolation", 65), ("notAllowedOnNonLeaf", 66), ("notAllowedOnRDN", 67), ("entryAlreadyExists", 68), ("objectClassModsProhibited", 69), ("reserved-70", 70), ("affectsMultipleDSAs", 71), ("other", 80), ("reserved-81", 81), ("reserved-82", 82), ("reserved-83", 83), ("reserved-84", 84), ("reserved-85", 85), ("reserved-86", 86), ("reserved-87", 87), ("reserved-88", 88), ("reserved-89", 89), ("reserved-90", 90)])),
    Py.NamedType "matchedDN" Rfc2251.LDAPDN.call,
    Py.NamedType "errorMessage" Rfc2251.LDAPString.call,
    Py.OptionalNamedType "referral" (Rfc2251.Referral.call.implicitTag (Py.Tag .context true 3)),
    Py.OptionalNamedType "serverSaslCreds" (Py.univ.OctetString.call.implicitTag (Py.Tag .context true 7))])

/-- rfc2251.py:320-348 `class LDAPResult(univ.Sequence)` -/
def LDAPResult : Py.Obj :=
  Py.univ.Sequence.setComponentType (Py.NamedTypes [
    Py.NamedType "resultCode" (Py.univ.Enumerated.call.setNamedValues (Py.NamedValues [("success", 0), ("operationsError", 1), ("protocolError", 2), ("timeLimitExceeded", 3), ("sizeLimitExceeded", 4), ("compareFalse", 5), ("compareTrue", 6), ("authMethodNotSupported", 7), ("strongAuthRequired", 8), ("reserved-9", 9), ("referral", 10), ("adminLimitExceeded", 11), ("unavailableCriticalExtension", 12), ("confidentialityRequired", 13), ("saslBindInProgress", 14), ("noSuchAttribute", 16), ("undefinedAttributeType", 17), ("inappropriateMatching", 18), ("constraintViolation", 19), ("attributeOrValueExists", 20), ("invalidAttributeSyntax", 21), ("noSuchObject", 32), ("aliasProblem", 33), ("invalidDNSyntax", 34), ("reserved-35", 35), ("aliasDereferencingProblem", 36), ("inappropriateAuthentication", 48), ("invalidCredentials", 49), ("insufficientAccessRights", 50), ("busy", 51), ("unavailable", 52), ("unwillingToPerform", 53), ("loopDetect", 54), ("namingViolation", 64), ("objectClassViolation", 65), ("notAllowedOnNonLeaf", 66), ("notAllowedOnRDN", 67), ("entryAlreadyExists", 68), ("objectClassModsProhibited", 69), ("reserved-70", 70), ("affectsMultipleDSAs", 71), ("other", 80), ("reserved-81", 81), ("reserved-82", 82), ("reserved-83", 83), ("reserved-84", 84), ("reserved-85", 85), ("reserved-86", 86), ("reserved-87", 87), ("reserved-88", 88), ("reserved-89", 89), ("reserved-90", 90)])),
    Py.NamedType "matchedDN" Rfc2251.LDAPDN.call,
    Py.NamedType "errorMessage" Rfc2251.LDAPString.call,
    Py.OptionalNamedType "referral" (Rfc2251.Referral.call.implicitTag (Py.Tag .context true 3))])

/-- rfc2251.py:351-355 `class SearchResultReference(univ.SequenceOf)` -/
def SearchResultReference : Py.Obj :=
  (Py.univ.SequenceOf.setTagSet (Py.univ.Sequence.tagSet.tagImplicitly (Py.Tag .application true 19))).setComponentTypeOf Rfc2251.LDAPURL.call

/-- rfc2251.py:358-361 `class SearchResultDone(LDAPResult)` -/
def SearchResultDone : Py.Obj :=
  Rfc2251.LDAPResult.setTagSet (Py.univ.Sequence.tagSet.tagImplicitly (Py.Tag .application true 5))

/-- rfc2251.py:364-368 `class AttributeTypeAndValues(univ.Sequence)` -/
def AttributeTypeAndValues : Py.Obj :=
  Py.univ.Sequence.setComponentType (Py.NamedTypes [
    Py.NamedType "type" Rfc2251.AttributeDescription.call,
    Py.NamedType "vals" (Py.univ.SetOf.call.setComponentTypeOf Rfc2251.AttributeValue.call)])

/-- rfc2251.py:371-387 `class ModifyRequest(univ.Sequence)` -/
def ModifyRequest : Py.Obj :=
  (Py.univ.Sequence.setTagSet (Py.univ.Sequence.tagSet.tagImplicitly (Py.Tag .application true 6))).setComponentType (Py.NamedTypes [
    Py.NamedType "object" Rfc2251.LDAPDN.call,
    Py.NamedType "modification" (Py.univ.SequenceOf.call.setComponentTypeOf (Py.univ.Sequence.call.setComponentType (Py.NamedTypes [
    Py.NamedType "operation" (Py.univ.Enumerated.call.setNamedValues (Py.NamedValues [("add", 0), ("delete", 1), ("replace", 2)])),
    Py.NamedType "modification" Rfc2251.AttributeTypeAndValues.call])))])

/-- rfc2251.py:390-393 `class ModifyResponse(LDAPResult)` -/
def ModifyResponse : Py.Obj :=
  Rfc2251.LDAPResult.setTagSet (Py.univ.Sequence.tagSet.tagImplicitly (Py.Tag .application true 7))

/-- rfc2251.py:396-402 `class AttributeList(univ.SequenceOf)` -/
def AttributeList : Py.Obj :=
  Py.univ.SequenceOf.setComponentTypeOf (Py.univ.Sequence.call.setComponentType (Py.NamedTypes [
    Py.NamedType "type" Rfc2251.AttributeDescription.call,
    Py.NamedType "vals" (Py.univ.SetOf.call.setComponentTypeOf Rfc2251.AttributeValue.call)]))

/-- rfc2251.py:405-412 `class AddRequest(univ.Sequence)` -/
def AddRequest : Py.Obj :=
  (Py.univ.Sequence.setTagSet (Py.univ.Sequence.tagSet.tagImplicitly (Py.Tag .application true 8))).setComponentType (Py.NamedTypes [
    Py.NamedType "entry" Rfc2251.LDAPDN.call,
    Py.NamedType "attributes" Rfc2251.AttributeList.call])

/-- rfc2251.py:415-418 `class AddResponse(LDAPResult)` -/
def AddResponse : Py.Obj :=
  Rfc2251.LDAPResult.setTagSet (Py.univ.Sequence.tagSet.tagImplicitly (Py.Tag .application true 9))

/-- rfc2251.py:421-424 `class DelRequest(LDAPResult)` -/
def DelRequest : Py.Obj :=
  Rfc2251.LDAPResult.setTagSet (Py.univ.Sequence.tagSet.tagImplicitly (Py.Tag .application true 10))

/-- rfc2251.py:427-430 `class DelResponse(LDAPResult)` -/
def DelResponse : Py.Obj :=
  Rfc2251.LDAPResult.setTagSet (Py.univ.Sequence.tagSet.tagImplicitly (Py.Tag .application true 11))

/-- rfc2251.py:433-444 `class ModifyDNRequest(univ.Sequence)` -/
def ModifyDNRequest : Py.Obj :=
  (Py.univ.Sequence.setTagSet (Py.univ.Sequence.tagSet.tagImplicitly (Py.Tag .application true 12))).setComponentType (Py.NamedTypes [
    Py.NamedType "entry" Rfc2251.LDAPDN.call,
    Py.NamedType "newrdn" Rfc2251.RelativeLDAPDN.call,
    Py.NamedType "deleteoldrdn" Py.univ.Boolean.call,
    Py.OptionalNamedType "newSuperior" (Rfc2251.LDAPDN.call.implicitTag (Py.Tag .context false 0))])

/-- rfc2251.py:447-450 `class ModifyDNResponse(LDAPResult)` -/
def ModifyDNResponse : Py.Obj :=
  Rfc2251.LDAPResult.setTagSet (Py.univ.Sequence.tagSet.tagImplicitly (Py.Tag .application true 13))

/-- rfc2251.py:453-460 `class CompareRequest(univ.Sequence)` -/
def CompareRequest : Py.Obj :=
  (Py.univ.Sequence.setTagSet (Py.univ.Sequence.tagSet.tagImplicitly (Py.Tag .application true 14))).setComponentType (Py.NamedTypes [
    Py.NamedType "entry" Rfc2251.LDAPDN.call,
    Py.NamedType "ava" Rfc2251.AttributeValueAssertion.call])

/-- rfc2251.py:463-466 `class CompareResponse(LDAPResult)` -/
def CompareResponse : Py.Obj :=
  Rfc2251.LDAPResult.setTagSet (Py.univ.Sequence.tagSet.tagImplicitly (Py.Tag .application true 15))

/-- rfc2251.py:469-472 `class AbandonRequest(LDAPResult)` -/
def AbandonRequest : Py.Obj :=
  Rfc2251.LDAPResult.setTagSet (Py.univ.Sequence.tagSet.tagImplicitly (Py.Tag .application true 16))

/-- rfc2251.py:475-484 `class ExtendedRequest(univ.Sequence)` -/
def ExtendedRequest : Py.Obj :=
  (Py.univ.Sequence.setTagSet (Py.univ.Sequence.tagSet.tagImplicitly (Py.Tag .application true 23))).setComponentType (Py.NamedTypes [
    Py.NamedType "requestName" (Rfc2251.LDAPOID.call.implicitTag (Py.Tag .context false 0)),
    Py.OptionalNamedType "requestValue" (Py.univ.OctetString.call.implicitTag (Py.Tag .context false 1))])

/-- rfc2251.py:487-523 `class ExtendedResponse(univ.Sequence)` -/
def ExtendedResponse : Py.Obj :=
  (Py.univ.Sequence.setTagSet (Py.univ.Sequence.tagSet.tagImplicitly (Py.Tag .application true 24))).setComponentType (Py.NamedTypes [
    Py.NamedType "resultCode" (Py.univ.Enumerated.call.setNamedValues (Py.NamedValues [("success", 0), ("operationsError", 1), ("protocolError", 2), ("timeLimitExceeded", 3), ("sizeLimitExceeded", 4), ("compareFalse", 5), ("compareTrue", 6), ("authMethodNotSupported", 7), ("strongAuthRequired", 8), ("reserved-9", 9), ("referral", 10), ("adminLimitExceeded", 11), ("unavailableCriticalExtension", 12), ("confidentialityRequired", 13), ("saslBindInProgress", 14), ("noSuchAttribute", 16), ("undefinedAttributeType", 17), ("inappropriateMatching", 18), ("constraintViolation", 19), ("attributeOrValueExists", 20), ("invalidAttributeSyntax", 21), ("noSuchObject", 32), ("aliasProblem", 33), ("invalidDNSyntax", 34), ("reserved-35", 35), ("aliasDereferencingProblem", 36), ("inappropriateAuthentication", 48), ("invalidCredentials", 49), ("insufficientAccessRights", 50), ("busy", 51), ("unavailable", 52), ("unwillingToPerform", 53), ("loopDetect", 54), ("namingViolation", 64), ("objectClassViolation", 65), ("notAllowedOnNonLeaf", 66), ("notAllowedOnRDN", 67), ("entryAlreadyExists", 68), ("objectClassModsProhibited", 69), ("reserved-70", 70), ("affectsMultipleDSAs", 71), ("other", 80), ("reserved-81", 81), ("reserved-82", 82), ("reserved-83", 83), ("reserved-84", 84), ("reserved-85", 85), ("reserved-86", 86), ("reserved-87", 87), ("reserved-88", 88), ("reserved-89", 89), ("reserved-90", 90)])),
    Py.NamedType "matchedDN" Rfc2251.LDAPDN.call,
    Py.NamedType "errorMessage" Rfc2251.LDAPString.call,
    Py.OptionalNamedType "referral" (Rfc2251.Referral.call.implicitTag (Py.Tag .context true 3)),
    Py.OptionalNamedType "responseName" (Rfc2251.LDAPOID.call.implicitTag (Py.Tag .context false 10)),
    Py.OptionalNamedType "response" (Py.univ.OctetString.call.implicitTag (Py.Tag .context false 11))])

/-- rfc2251.py:526-529 `class MessageID(univ.Integer)` -/
def MessageID : Py.Obj :=
  Py.univ.Integer.setSubtypeSpec (Py.univ.Integer.subtypeSpec.add (Py.ValueRangeConstraint (.fin 0) Rfc2251.maxInt.bound))

/-- rfc2251.py:532-563 `class LDAPMessage(univ.Sequence)` -/
def LDAPMessage : Py.Obj :=
  Py.univ.Sequence.setComponentType (Py.NamedTypes [
    Py.NamedType "messageID" Rfc2251.MessageID.call,
    Py.NamedType "protocolOp" (Py.univ.Choice.call.setComponentType (Py.NamedTypes [
    Py.NamedType "bindRequest" Rfc2251.BindRequest.call,
    Py.NamedType "bindResponse" Rfc2251.BindResponse.call,
    Py.NamedType "unbindRequest" Rfc2251.UnbindRequest.call,
    Py.NamedType "searchRequest" Rfc2251.SearchRequest.call,
    Py.NamedType "searchResEntry" Rfc2251.SearchResultEntry.call,
    Py.NamedType "searchResDone" Rfc2251.SearchResultDone.call,
    Py.NamedType "searchResRef" Rfc2251.SearchResultReference.call,
    Py.NamedType "modifyRequest" Rfc2251.ModifyRequest.call,
    Py.NamedType "modifyResponse" Rfc2251.ModifyResponse.call,
    Py.NamedType "addRequest" Rfc2251.AddRequest.call,
    Py.NamedType "addResponse" Rfc2251.AddResponse.call,
    Py.NamedType "delRequest" Rfc2251.DelRequest.call,
    Py.NamedType "delResponse" Rfc2251.DelResponse.call,
    Py.NamedType "modDNRequest" Rfc2251.ModifyDNRequest.call,
    Py.NamedType "modDNResponse" Rfc2251.ModifyDNResponse.call,
    Py.NamedType "compareRequest" Rfc2251.CompareRequest.call,
    Py.NamedType "compareResponse" Rfc2251.CompareResponse.call,
    Py.NamedType "abandonRequest" Rfc2251.AbandonRequest.call,
    Py.NamedType "extendedReq" Rfc2251.ExtendedRequest.call,
    Py.NamedType "extendedResp" Rfc2251.ExtendedResponse.call])),
    Py.OptionalNamedType "controls" (Rfc2251.Controls.call.implicitTag (Py.Tag .context true 0))])

/-- Modules of this package imported by rfc2251.py, in textual order. -/
def imports : List Py.Ident :=
  []

/-- Dictionary operations executed when rfc2251.py is imported, in program order. -/
def effects : List Py.Effect :=
  []

/-- ASN.1 types rfc2251.py binds at module level (final version of each name), plus nested classes. -/
def classes : List (String × Py.Obj) :=
  [("rfc2251.LDAPString", Rfc2251.LDAPString),
   ("rfc2251.LDAPOID", Rfc2251.LDAPOID),
   ("rfc2251.LDAPDN", Rfc2251.LDAPDN),
   ("rfc2251.RelativeLDAPDN", Rfc2251.RelativeLDAPDN),
   ("rfc2251.AttributeType", Rfc2251.AttributeType),
   ("rfc2251.AttributeDescription", Rfc2251.AttributeDescription),
   ("rfc2251.AttributeDescriptionList", Rfc2251.AttributeDescriptionList),
   ("rfc2251.AttributeValue", Rfc2251.AttributeValue),
   ("rfc2251.AssertionValue", Rfc2251.AssertionValue),
   ("rfc2251.AttributeValueAssertion", Rfc2251.AttributeValueAssertion),
   ("rfc2251.Attribute", Rfc2251.Attribute),
   ("rfc2251.MatchingRuleId", Rfc2251.MatchingRuleId),
   ("rfc2251.Control", Rfc2251.Control),
   ("rfc2251.Controls", Rfc2251.Controls),
   ("rfc2251.LDAPURL", Rfc2251.LDAPURL),
   ("rfc2251.Referral", Rfc2251.Referral),
   ("rfc2251.SaslCredentials", Rfc2251.SaslCredentials),
   ("rfc2251.AuthenticationChoice", Rfc2251.AuthenticationChoice),
   ("rfc2251.BindRequest", Rfc2251.BindRequest),
   ("rfc2251.PartialAttributeList", Rfc2251.PartialAttributeList),
   ("rfc2251.SearchResultEntry", Rfc2251.SearchResultEntry),
   ("rfc2251.MatchingRuleAssertion", Rfc2251.MatchingRuleAssertion),
   ("rfc2251.SubstringFilter", Rfc2251.SubstringFilter),
   ("rfc2251.Filter3", Rfc2251.Filter3),
   ("rfc2251.Filter2", Rfc2251.Filter2),
   ("rfc2251.Filter", Rfc2251.Filter),
   ("rfc2251.SearchRequest", Rfc2251.SearchRequest),
   ("rfc2251.UnbindRequest", Rfc2251.UnbindRequest),
   ("rfc2251.BindResponse", Rfc2251.BindResponse),
   ("rfc2251.LDAPResult", Rfc2251.LDAPResult),
   ("rfc2251.SearchResultReference", Rfc2251.SearchResultReference),
   ("rfc2251.SearchResultDone", Rfc2251.SearchResultDone),
   ("rfc2251.AttributeTypeAndValues", Rfc2251.AttributeTypeAndValues),
   ("rfc2251.ModifyRequest", Rfc2251.ModifyRequest),
   ("rfc2251.ModifyResponse", Rfc2251.ModifyResponse),
   ("rfc2251.AttributeList", Rfc2251.AttributeList),
   ("rfc2251.AddRequest", Rfc2251.AddRequest),
   ("rfc2251.AddResponse", Rfc2251.AddResponse),
   ("rfc2251.DelRequest", Rfc2251.DelRequest),
   ("rfc2251.DelResponse", Rfc2251.DelResponse),
   ("rfc2251.ModifyDNRequest", Rfc2251.ModifyDNRequest),
   ("rfc2251.ModifyDNResponse", Rfc2251.ModifyDNResponse),
   ("rfc2251.CompareRequest", Rfc2251.CompareRequest),
   ("rfc2251.CompareResponse", Rfc2251.CompareResponse),
   ("rfc2251.AbandonRequest", Rfc2251.AbandonRequest),
   ("rfc2251.ExtendedRequest", Rfc2251.ExtendedRequest),
   ("rfc2251.ExtendedResponse", Rfc2251.ExtendedResponse),
   ("rfc2251.MessageID", Rfc2251.MessageID),
   ("rfc2251.LDAPMessage", Rfc2251.LDAPMessage)]

/-- pyasn1 instances rfc2251.py binds at module level. -/
def objects : List (String × Py.Obj) :=
  [("rfc2251.maxInt", Rfc2251.maxInt)]

/-- pyasn1 instances rfc2251.py fills in by item assignment. -/
def protos : List (String × Py.Proto) :=
  []

/-- Every place of rfc2251.py that instantiates a class of the package: where, the class as it is
at that point, and the class as it is when the import has finished. -/
def snapshots : List Py.Snapshot :=
  [⟨"rfc2251.py:49", Rfc2251.AttributeDescription, Rfc2251.AttributeDescription⟩,
   ⟨"rfc2251.py:62", Rfc2251.AttributeDescription, Rfc2251.AttributeDescription⟩,
   ⟨"rfc2251.py:63", Rfc2251.AssertionValue, Rfc2251.AssertionValue⟩,
   ⟨"rfc2251.py:69", Rfc2251.AttributeDescription, Rfc2251.AttributeDescription⟩,
   ⟨"rfc2251.py:70", Rfc2251.AttributeValue, Rfc2251.AttributeValue⟩,
   ⟨"rfc2251.py:80", Rfc2251.LDAPOID, Rfc2251.LDAPOID⟩,
   ⟨"rfc2251.py:87", Rfc2251.Control, Rfc2251.Control⟩,
   ⟨"rfc2251.py:95", Rfc2251.LDAPURL, Rfc2251.LDAPURL⟩,
   ⟨"rfc2251.py:100", Rfc2251.LDAPString, Rfc2251.LDAPString⟩,
   ⟨"rfc2251.py:114", Rfc2251.SaslCredentials, Rfc2251.SaslCredentials⟩,
   ⟨"rfc2251.py:124", Rfc2251.LDAPDN, Rfc2251.LDAPDN⟩,
   ⟨"rfc2251.py:125", Rfc2251.AuthenticationChoice, Rfc2251.AuthenticationChoice⟩,
   ⟨"rfc2251.py:132", Rfc2251.AttributeDescription, Rfc2251.AttributeDescription⟩,
   ⟨"rfc2251.py:133", Rfc2251.AttributeValue, Rfc2251.AttributeValue⟩,
   ⟨"rfc2251.py:143", Rfc2251.LDAPDN, Rfc2251.LDAPDN⟩,
   ⟨"rfc2251.py:144", Rfc2251.PartialAttributeList, Rfc2251.PartialAttributeList⟩,
   ⟨"rfc2251.py:150", Rfc2251.MatchingRuleId, Rfc2251.MatchingRuleId⟩,
   ⟨"rfc2251.py:152", Rfc2251.AttributeDescription, Rfc2251.AttributeDescription⟩,
   ⟨"rfc2251.py:155", Rfc2251.AssertionValue, Rfc2251.AssertionValue⟩,
   ⟨"rfc2251.py:163", Rfc2251.AttributeDescription, Rfc2251.AttributeDescription⟩,
   ⟨"rfc2251.py:169", Rfc2251.LDAPString, Rfc2251.LDAPString⟩,
   ⟨"rfc2251.py:172", Rfc2251.LDAPString, Rfc2251.LDAPString⟩,
   ⟨"rfc2251.py:175", Rfc2251.LDAPString, Rfc2251.LDAPString⟩,
   ⟨"rfc2251.py:188", Rfc2251.AttributeValueAssertion, Rfc2251.AttributeValueAssertion⟩,
   ⟨"rfc2251.py:190", Rfc2251.SubstringFilter, Rfc2251.SubstringFilter⟩,
   ⟨"rfc2251.py:192", Rfc2251.AttributeValueAssertion, Rfc2251.AttributeValueAssertion⟩,
   ⟨"rfc2251.py:194", Rfc2251.AttributeValueAssertion, Rfc2251.AttributeValueAssertion⟩,
   ⟨"rfc2251.py:196", Rfc2251.AttributeDescription, Rfc2251.AttributeDescription⟩,
   ⟨"rfc2251.py:198", Rfc2251.AttributeValueAssertion, Rfc2251.AttributeValueAssertion⟩,
   ⟨"rfc2251.py:200", Rfc2251.MatchingRuleAssertion, Rfc2251.MatchingRuleAssertion⟩,
   ⟨"rfc2251.py:207", Rfc2251.Filter3, Rfc2251.Filter3⟩,
   ⟨"rfc2251.py:209", Rfc2251.Filter3, Rfc2251.Filter3⟩,
   ⟨"rfc2251.py:212", Rfc2251.Filter3, Rfc2251.Filter3⟩,
   ⟨"rfc2251.py:213", Rfc2251.AttributeValueAssertion, Rfc2251.AttributeValueAssertion⟩,
   ⟨"rfc2251.py:215", Rfc2251.SubstringFilter, Rfc2251.SubstringFilter⟩,
   ⟨"rfc2251.py:217", Rfc2251.AttributeValueAssertion, Rfc2251.AttributeValueAssertion⟩,
   ⟨"rfc2251.py:219", Rfc2251.AttributeValueAssertion, Rfc2251.AttributeValueAssertion⟩,
   ⟨"rfc2251.py:221", Rfc2251.AttributeDescription, Rfc2251.AttributeDescription⟩,
   ⟨"rfc2251.py:223", Rfc2251.AttributeValueAssertion, Rfc2251.AttributeValueAssertion⟩,
   ⟨"rfc2251.py:225", Rfc2251.MatchingRuleAssertion, Rfc2251.MatchingRuleAssertion⟩,
   ⟨"rfc2251.py:232", Rfc2251.Filter2, Rfc2251.Filter2⟩,
   ⟨"rfc2251.py:234", Rfc2251.Filter2, Rfc2251.Filter2⟩,
   ⟨"rfc2251.py:237", Rfc2251.Filter2, Rfc2251.Filter2⟩,
   ⟨"rfc2251.py:238", Rfc2251.AttributeValueAssertion, Rfc2251.AttributeValueAssertion⟩,
   ⟨"rfc2251.py:240", Rfc2251.SubstringFilter, Rfc2251.SubstringFilter⟩,
   ⟨"rfc2251.py:242", Rfc2251.AttributeValueAssertion, Rfc2251.AttributeValueAssertion⟩,
   ⟨"rfc2251.py:244", Rfc2251.AttributeValueAssertion, Rfc2251.AttributeValueAssertion⟩,
   ⟨"rfc2251.py:246", Rfc2251.AttributeDescription, Rfc2251.AttributeDescription⟩,
   ⟨"rfc2251.py:248", Rfc2251.AttributeValueAssertion, Rfc2251.AttributeValueAssertion⟩,
   ⟨"rfc2251.py:250", Rfc2251.MatchingRuleAssertion, Rfc2251.MatchingRuleAssertion⟩,
   ⟨"rfc2251.py:262", Rfc2251.LDAPDN, Rfc2251.LDAPDN⟩,
   ⟨"rfc2251.py:273", Rfc2251.Filter, Rfc2251.Filter⟩,
   ⟨"rfc2251.py:274", Rfc2251.AttributeDescriptionList, Rfc2251.AttributeDescriptionList⟩,
   ⟨"rfc2251.py:311", Rfc2251.LDAPDN, Rfc2251.LDAPDN⟩,
   ⟨"rfc2251.py:312", Rfc2251.LDAPString, Rfc2251.LDAPString⟩,
   ⟨"rfc2251.py:313", Rfc2251.Referral, Rfc2251.Referral⟩,
   ⟨"rfc2251.py:344", Rfc2251.LDAPDN, Rfc2251.LDAPDN⟩,
   ⟨"rfc2251.py:345", Rfc2251.LDAPString, Rfc2251.LDAPString⟩,
   ⟨"rfc2251.py:346", Rfc2251.Referral, Rfc2251.Referral⟩,
   ⟨"rfc2251.py:355", Rfc2251.LDAPURL, Rfc2251.LDAPURL⟩,
   ⟨"rfc2251.py:366", Rfc2251.AttributeDescription, Rfc2251.AttributeDescription⟩,
   ⟨"rfc2251.py:367", Rfc2251.AttributeValue, Rfc2251.AttributeValue⟩,
   ⟨"rfc2251.py:376", Rfc2251.LDAPDN, Rfc2251.LDAPDN⟩,
   ⟨"rfc2251.py:384", Rfc2251.AttributeTypeAndValues, Rfc2251.AttributeTypeAndValues⟩,
   ⟨"rfc2251.py:399", Rfc2251.AttributeDescription, Rfc2251.AttributeDescription⟩,
   ⟨"rfc2251.py:400", Rfc2251.AttributeValue, Rfc2251.AttributeValue⟩,
   ⟨"rfc2251.py:410", Rfc2251.LDAPDN, Rfc2251.LDAPDN⟩,
   ⟨"rfc2251.py:411", Rfc2251.AttributeList, Rfc2251.AttributeList⟩,
   ⟨"rfc2251.py:438", Rfc2251.LDAPDN, Rfc2251.LDAPDN⟩,
   ⟨"rfc2251.py:439", Rfc2251.RelativeLDAPDN, Rfc2251.RelativeLDAPDN⟩,
   ⟨"rfc2251.py:442", Rfc2251.LDAPDN, Rfc2251.LDAPDN⟩,
   ⟨"rfc2251.py:458", Rfc2251.LDAPDN, Rfc2251.LDAPDN⟩,
   ⟨"rfc2251.py:459", Rfc2251.AttributeValueAssertion, Rfc2251.AttributeValueAssertion⟩,
   ⟨"rfc2251.py:481", Rfc2251.LDAPOID, Rfc2251.LDAPOID⟩,
   ⟨"rfc2251.py:514", Rfc2251.LDAPDN, Rfc2251.LDAPDN⟩,
   ⟨"rfc2251.py:515", Rfc2251.LDAPString, Rfc2251.LDAPString⟩,
   ⟨"rfc2251.py:516", Rfc2251.Referral, Rfc2251.Referral⟩,
   ⟨"rfc2251.py:519", Rfc2251.LDAPOID, Rfc2251.LDAPOID⟩,
   ⟨"rfc2251.py:534", Rfc2251.MessageID, Rfc2251.MessageID⟩,
   ⟨"rfc2251.py:538", Rfc2251.BindRequest, Rfc2251.BindRequest⟩,
   ⟨"rfc2251.py:539", Rfc2251.BindResponse, Rfc2251.BindResponse⟩,
   ⟨"rfc2251.py:540", Rfc2251.UnbindRequest, Rfc2251.UnbindRequest⟩,
   ⟨"rfc2251.py:541", Rfc2251.SearchRequest, Rfc2251.SearchRequest⟩,
   ⟨"rfc2251.py:542", Rfc2251.SearchResultEntry, Rfc2251.SearchResultEntry⟩,
   ⟨"rfc2251.py:543", Rfc2251.SearchResultDone, Rfc2251.SearchResultDone⟩,
   ⟨"rfc2251.py:544", Rfc2251.SearchResultReference, Rfc2251.SearchResultReference⟩,
   ⟨"rfc2251.py:545", Rfc2251.ModifyRequest, Rfc2251.ModifyRequest⟩,
   ⟨"rfc2251.py:546", Rfc2251.ModifyResponse, Rfc2251.ModifyResponse⟩,
   ⟨"rfc2251.py:547", Rfc2251.AddRequest, Rfc2251.AddRequest⟩,
   ⟨"rfc2251.py:548", Rfc2251.AddResponse, Rfc2251.AddResponse⟩,
   ⟨"rfc2251.py:549", Rfc2251.DelRequest, Rfc2251.DelRequest⟩,
   ⟨"rfc2251.py:550", Rfc2251.DelResponse, Rfc2251.DelResponse⟩,
   ⟨"rfc2251.py:551", Rfc2251.ModifyDNRequest, Rfc2251.ModifyDNRequest⟩,
   ⟨"rfc2251.py:552", Rfc2251.ModifyDNResponse, Rfc2251.ModifyDNResponse⟩,
   ⟨"rfc2251.py:553", Rfc2251.CompareRequest, Rfc2251.CompareRequest⟩,
   ⟨"rfc2251.py:554", Rfc2251.CompareResponse, Rfc2251.CompareResponse⟩,
   ⟨"rfc2251.py:555", Rfc2251.AbandonRequest, Rfc2251.AbandonRequest⟩,
   ⟨"rfc2251.py:556", Rfc2251.ExtendedRequest, Rfc2251.ExtendedRequest⟩,
   ⟨"rfc2251.py:557", Rfc2251.ExtendedResponse, Rfc2251.ExtendedResponse⟩,
   ⟨"rfc2251.py:561", Rfc2251.Controls, Rfc2251.Controls⟩]

/-- Functions rfc2251.py defines. -/
def builders : List (String × (List Py.OidArg → Py.Obj)) :=
  []

def asModule : Py.Module :=
  { id := (Py.mod 5 "rfc2251"), imports := imports, effects := effects, classes := classes, objects := objects, protos := protos, snapshots := snapshots, builders := builders }

end Rfc2251
end Verif
