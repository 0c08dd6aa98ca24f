import Verif.Py.Obj
import Verif.Gen.Rfc5652
import Verif.Gen.Rfc6019

/-! Transcription of /repo/pyasn1_modules/rfc6031.py (generated by tools/gen.py). -/

namespace Verif
namespace Rfc6031

/-- rfc6031.py:28-35 `def _OID(*components)` -/
def _OID (components : List Py.OidArg) : Py.Obj :=
  match Py.oidLoop [] components with
  | some output => Py.univ.ObjectIdentifier.call.callArcs output
  | none => .fail "OID without value"

/-- rfc6031.py:38 -/
def MAX : Py.Bound :=
  .inf

/-- rfc6031.py:40 -/
def id_pskc : Py.Obj :=
  (Py.univ.ObjectIdentifier.call.callArcs [1, 2, 840, 113549, 1, 9, 16, 12])

/-- rfc6031.py:45 -/
def id_pskc_manufacturer : Py.Obj :=
  (Rfc6031._OID [.oid Rfc6031.id_pskc, .num 1])

/-- rfc6031.py:47-48 `class at_pskc_manufacturer(char.UTF8String)` -/
def at_pskc_manufacturer : Py.Obj :=
  Py.char.UTF8String

/-- rfc6031.py:51 -/
def id_pskc_serialNo : Py.Obj :=
  (Rfc6031._OID [.oid Rfc6031.id_pskc, .num 2])

/-- rfc6031.py:53-54 `class at_pskc_serialNo(char.UTF8String)` -/
def at_pskc_serialNo : Py.Obj :=
  Py.char.UTF8String

/-- rfc6031.py:57 -/
def id_pskc_model : Py.Obj :=
  (Rfc6031._OID [.oid Rfc6031.id_pskc, .num 3])

/-- rfc6031.py:59-60 `class at_pskc_model(char.UTF8String)` -/
def at_pskc_model : Py.Obj :=
  Py.char.UTF8String

/-- rfc6031.py:63 -/
def id_pskc_issueNo : Py.Obj :=
  (Rfc6031._OID [.oid Rfc6031.id_pskc, .num 4])

/-- rfc6031.py:65-66 `class at_pskc_issueNo(char.UTF8String)` -/
def at_pskc_issueNo : Py.Obj :=
  Py.char.UTF8String

/-- rfc6031.py:69 -/
def id_pskc_deviceBinding : Py.Obj :=
  (Rfc6031._OID [.oid Rfc6031.id_pskc, .num 5])

/-- rfc6031.py:71-72 `class at_pskc_deviceBinding(char.UTF8String)` -/
def at_pskc_deviceBinding : Py.Obj :=
  Py.char.UTF8String

/-- rfc6031.py:75 -/
def id_pskc_deviceStartDate : Py.Obj :=
  (Rfc6031._OID [.oid Rfc6031.id_pskc, .num 6])

/-- rfc6031.py:77-78 `class at_pskc_deviceStartDate(useful.GeneralizedTime)` -/
def at_pskc_deviceStartDate : Py.Obj :=
  Py.useful.GeneralizedTime

/-- rfc6031.py:81 -/
def id_pskc_deviceExpiryDate : Py.Obj :=
  (Rfc6031._OID [.oid Rfc6031.id_pskc, .num 7])

/-- rfc6031.py:83-84 `class at_pskc_deviceExpiryDate(useful.GeneralizedTime)` -/
def at_pskc_deviceExpiryDate : Py.Obj :=
  Py.useful.GeneralizedTime

/-- rfc6031.py:87 -/
def id_pskc_moduleId : Py.Obj :=
  (Rfc6031._OID [.oid Rfc6031.id_pskc, .num 8])

/-- rfc6031.py:89-90 `class at_pskc_moduleId(char.UTF8String)` -/
def at_pskc_moduleId : Py.Obj :=
  Py.char.UTF8String

/-- rfc6031.py:93 -/
def id_pskc_deviceUserId : Py.Obj :=
  (Rfc6031._OID [.oid Rfc6031.id_pskc, .num 26])

/-- rfc6031.py:95-96 `class at_pskc_deviceUserId(char.UTF8String)` -/
def at_pskc_deviceUserId : Py.Obj :=
  Py.char.UTF8String

/-- rfc6031.py:101 -/
def id_pskc_keyId : Py.Obj :=
  (Rfc6031._OID [.oid Rfc6031.id_pskc, .num 9])

/-- rfc6031.py:103-104 `class at_pskc_keyUserId(char.UTF8String)` -/
def at_pskc_keyUserId : Py.Obj :=
  Py.char.UTF8String

/-- rfc6031.py:107 -/
def id_pskc_algorithm : Py.Obj :=
  (Rfc6031._OID [.oid Rfc6031.id_pskc, .num 10])

/-- rfc6031.py:109-110 `class at_pskc_algorithm(char.UTF8String)` -/
def at_pskc_algorithm : Py.Obj :=
  Py.char.UTF8String

/-- rfc6031.py:113 -/
def id_pskc_issuer : Py.Obj :=
  (Rfc6031._OID [.oid Rfc6031.id_pskc, .num 11])

/-- rfc6031.py:115-116 `class at_pskc_issuer(char.UTF8String)` -/
def at_pskc_issuer : Py.Obj :=
  Py.char.UTF8String

/-- rfc6031.py:119 -/
def id_pskc_keyProfileId : Py.Obj :=
  (Rfc6031._OID [.oid Rfc6031.id_pskc, .num 12])

/-- rfc6031.py:121-122 `class at_pskc_keyProfileId(char.UTF8String)` -/
def at_pskc_keyProfileId : Py.Obj :=
  Py.char.UTF8String

/-- rfc6031.py:125 -/
def id_pskc_keyReference : Py.Obj :=
  (Rfc6031._OID [.oid Rfc6031.id_pskc, .num 13])

/-- rfc6031.py:127-128 `class at_pskc_keyReference(char.UTF8String)` -/
def at_pskc_keyReference : Py.Obj :=
  Py.char.UTF8String

/-- rfc6031.py:131 -/
def id_pskc_friendlyName : Py.Obj :=
  (Rfc6031._OID [.oid Rfc6031.id_pskc, .num 14])

/-- rfc6031.py:133-134 `class FriendlyName(univ.Sequence)` -/
def FriendlyName__0 : Py.Obj :=
  Py.univ.Sequence

/-- rfc6031.py:136-139 `FriendlyName.componentType = ...` -/
def FriendlyName : Py.Obj :=
  Rfc6031.FriendlyName__0.setComponentType (Py.NamedTypes [
    Py.NamedType "friendlyName" Py.char.UTF8String.call,
    Py.OptionalNamedType "friendlyNameLangTag" Py.char.UTF8String.call])

/-- rfc6031.py:141-142 `class at_pskc_friendlyName(FriendlyName)` -/
def at_pskc_friendlyName : Py.Obj :=
  Rfc6031.FriendlyName

/-- rfc6031.py:145 -/
def id_pskc_algorithmParameters : Py.Obj :=
  (Rfc6031._OID [.oid Rfc6031.id_pskc, .num 15])

/-- rfc6031.py:147-148 `class Encoding(char.UTF8String)` -/
def Encoding__0 : Py.Obj :=
  Py.char.UTF8String

/-- rfc6031.py:150-156 `Encoding.namedValues = ...` -/
def Encoding__1 : Py.Obj :=
  Rfc6031.Encoding__0.unusedNamedValues [("dec", "DECIMAL"), ("hex", "HEXADECIMAL"), ("alpha", "ALPHANUMERIC"), ("b64", "BASE64"), ("bin", "BINARY")]

/-- rfc6031.py:158-159 `Encoding.subtypeSpec = ...` -/
def Encoding : Py.Obj :=
  Rfc6031.Encoding__1.setSubtypeSpec (Py.SingleValueConstraint [(Py.str "DECIMAL"), (Py.str "HEXADECIMAL"), (Py.str "ALPHANUMERIC"), (Py.str "BASE64"), (Py.str "BINARY")])

/-- rfc6031.py:161-162 `class ChallengeFormat(univ.Sequence)` -/
def ChallengeFormat__0 : Py.Obj :=
  Py.univ.Sequence

/-- rfc6031.py:164-172 `ChallengeFormat.componentType = ...` -/
def ChallengeFormat : Py.Obj :=
  Rfc6031.ChallengeFormat__0.setComponentType (Py.NamedTypes [
    Py.NamedType "encoding" Rfc6031.Encoding.call,
    Py.DefaultedNamedType "checkDigit" (Py.univ.Boolean.call.callInt 0),
    Py.NamedType "min" (Py.univ.Integer.call.addSubtypeSpec (Py.ValueRangeConstraint (.fin 0) Rfc6031.MAX)),
    Py.NamedType "max" (Py.univ.Integer.call.addSubtypeSpec (Py.ValueRangeConstraint (.fin 0) Rfc6031.MAX))])

/-- rfc6031.py:174-175 `class ResponseFormat(univ.Sequence)` -/
def ResponseFormat__0 : Py.Obj :=
  Py.univ.Sequence

/-- rfc6031.py:177-183 `ResponseFormat.componentType = ...` -/
def ResponseFormat : Py.Obj :=
  Rfc6031.ResponseFormat__0.setComponentType (Py.NamedTypes [
    Py.NamedType "encoding" Rfc6031.Encoding.call,
    Py.NamedType "length" (Py.univ.Integer.call.addSubtypeSpec (Py.ValueRangeConstraint (.fin 0) Rfc6031.MAX)),
    Py.DefaultedNamedType "checkDigit" (Py.univ.Boolean.call.callInt 0)])

/-- rfc6031.py:185-186 `class PSKCAlgorithmParameters(univ.Choice)` -/
def PSKCAlgorithmParameters__0 : Py.Obj :=
  Py.univ.Choice

/-- rfc6031.py:188-194 `PSKCAlgorithmParameters.componentType = ...` -/
def PSKCAlgorithmParameters : Py.Obj :=
  Rfc6031.PSKCAlgorithmParameters__0.setComponentType (Py.NamedTypes [
    Py.NamedType "suite" Py.char.UTF8String.call,
    Py.NamedType "challengeFormat" (Rfc6031.ChallengeFormat.call.implicitTag (Py.Tag .context true 0)),
    Py.NamedType "responseFormat" (Rfc6031.ResponseFormat.call.implicitTag (Py.Tag .context true 1))])

/-- rfc6031.py:196-197 `class at_pskc_algorithmParameters(PSKCAlgorithmParameters)` -/
def at_pskc_algorithmParameters : Py.Obj :=
  Rfc6031.PSKCAlgorithmParameters

/-- rfc6031.py:200 -/
def id_pskc_counter : Py.Obj :=
  (Rfc6031._OID [.oid Rfc6031.id_pskc, .num 16])

/-- rfc6031.py:202-203 `class at_pskc_counter(univ.Integer)` -/
def at_pskc_counter__0 : Py.Obj :=
  Py.univ.Integer

/-- rfc6031.py:205 `at_pskc_counter.subtypeSpec = ...` -/
def at_pskc_counter : Py.Obj :=
  Rfc6031.at_pskc_counter__0.setSubtypeSpec (Py.ValueRangeConstraint (.fin 0) Rfc6031.MAX)

/-- rfc6031.py:208 -/
def id_pskc_time : Py.Obj :=
  (Rfc6031._OID [.oid Rfc6031.id_pskc, .num 17])

/-- rfc6031.py:210-211 `class at_pskc_time(rfc6019.BinaryTime)` -/
def at_pskc_time : Py.Obj :=
  Rfc6019.BinaryTime

/-- rfc6031.py:214 -/
def id_pskc_timeInterval : Py.Obj :=
  (Rfc6031._OID [.oid Rfc6031.id_pskc, .num 18])

/-- rfc6031.py:216-217 `class at_pskc_timeInterval(univ.Integer)` -/
def at_pskc_timeInterval__0 : Py.Obj :=
  Py.univ.Integer

/-- rfc6031.py:219 `at_pskc_timeInterval.subtypeSpec = ...` -/
def at_pskc_timeInterval : Py.Obj :=
  Rfc6031.at_pskc_timeInterval__0.setSubtypeSpec (Py.ValueRangeConstraint (.fin 0) Rfc6031.MAX)

/-- rfc6031.py:222 -/
def id_pskc_timeDrift : Py.Obj :=
  (Rfc6031._OID [.oid Rfc6031.id_pskc, .num 19])

/-- rfc6031.py:224-225 `class at_pskc_timeDrift(univ.Integer)` -/
def at_pskc_timeDrift__0 : Py.Obj :=
  Py.univ.Integer

/-- rfc6031.py:227 `at_pskc_timeDrift.subtypeSpec = ...` -/
def at_pskc_timeDrift : Py.Obj :=
  Rfc6031.at_pskc_timeDrift__0.setSubtypeSpec (Py.ValueRangeConstraint (.fin 0) Rfc6031.MAX)

/-- rfc6031.py:230 -/
def id_pskc_valueMAC : Py.Obj :=
  (Rfc6031._OID [.oid Rfc6031.id_pskc, .num 20])

/-- rfc6031.py:232-233 `class ValueMac(univ.Sequence)` -/
def ValueMac__0 : Py.Obj :=
  Py.univ.Sequence

/-- rfc6031.py:235-238 `ValueMac.componentType = ...` -/
def ValueMac : Py.Obj :=
  Rfc6031.ValueMac__0.setComponentType (Py.NamedTypes [
    Py.NamedType "macAlgorithm" Py.char.UTF8String.call,
    Py.NamedType "mac" Py.char.UTF8String.call])

/-- rfc6031.py:240-241 `class at_pskc_valueMAC(ValueMac)` -/
def at_pskc_valueMAC : Py.Obj :=
  Rfc6031.ValueMac

/-- rfc6031.py:244 -/
def id_pskc_keyUserId : Py.Obj :=
  (Rfc6031._OID [.oid Rfc6031.id_pskc, .num 27])

/-- rfc6031.py:246-247 `class at_pskc_keyId(char.UTF8String)` -/
def at_pskc_keyId : Py.Obj :=
  Py.char.UTF8String

/-- rfc6031.py:250 -/
def id_pskc_keyStartDate : Py.Obj :=
  (Rfc6031._OID [.oid Rfc6031.id_pskc, .num 21])

/-- rfc6031.py:252-253 `class at_pskc_keyStartDate(useful.GeneralizedTime)` -/
def at_pskc_keyStartDate : Py.Obj :=
  Py.useful.GeneralizedTime

/-- rfc6031.py:256 -/
def id_pskc_keyExpiryDate : Py.Obj :=
  (Rfc6031._OID [.oid Rfc6031.id_pskc, .num 22])

/-- rfc6031.py:258-259 `class at_pskc_keyExpiryDate(useful.GeneralizedTime)` -/
def at_pskc_keyExpiryDate : Py.Obj :=
  Py.useful.GeneralizedTime

/-- rfc6031.py:262 -/
def id_pskc_numberOfTransactions : Py.Obj :=
  (Rfc6031._OID [.oid Rfc6031.id_pskc, .num 23])

/-- rfc6031.py:264-265 `class at_pskc_numberOfTransactions(univ.Integer)` -/
def at_pskc_numberOfTransactions__0 : Py.Obj :=
  Py.univ.Integer

/-- rfc6031.py:267 `at_pskc_numberOfTransactions.subtypeSpec = ...` -/
def at_pskc_numberOfTransactions : Py.Obj :=
  Rfc6031.at_pskc_numberOfTransactions__0.setSubtypeSpec (Py.ValueRangeConstraint (.fin 0) Rfc6031.MAX)

/-- rfc6031.py:270 -/
def id_pskc_keyUsages : Py.Obj :=
  (Rfc6031._OID [.oid Rfc6031.id_pskc, .num 24])

/-- rfc6031.py:272-273 `class PSKCKeyUsage(char.UTF8String)` -/
def PSKCKeyUsage__0 : Py.Obj :=
  Py.char.UTF8String

/-- rfc6031.py:275-287 `PSKCKeyUsage.namedValues = ...` -/
def PSKCKeyUsage__1 : Py.Obj :=
  Rfc6031.PSKCKeyUsage__0.unusedNamedValues [("otp", "OTP"), ("cr", "CR"), ("encrypt", "Encrypt"), ("integrity", "Integrity"), ("verify", "Verify"), ("unlock", "Unlock"), ("decrypt", "Decrypt"), ("keywrap", "KeyWrap"), ("unwrap", "Unwrap"), ("derive", "Derive"), ("generate", "Generate")]

/-- rfc6031.py:289-291 `PSKCKeyUsage.subtypeSpec = ...` -/
def PSKCKeyUsage : Py.Obj :=
  Rfc6031.PSKCKeyUsage__1.setSubtypeSpec (Py.SingleValueConstraint [(Py.str "OTP"), (Py.str "CR"), (Py.str "Encrypt"), (Py.str "Integrity"), (Py.str "Verify"), (Py.str "Unlock"), (Py.str "Decrypt"), (Py.str "KeyWrap"), (Py.str "Unwrap"), (Py.str "Derive"), (Py.str "Generate")])

/-- rfc6031.py:293-294 `class PSKCKeyUsages(univ.SequenceOf)` -/
def PSKCKeyUsages__0 : Py.Obj :=
  Py.univ.SequenceOf

/-- rfc6031.py:296 `PSKCKeyUsages.componentType = ...` -/
def PSKCKeyUsages : Py.Obj :=
  Rfc6031.PSKCKeyUsages__0.setComponentTypeOf Rfc6031.PSKCKeyUsage.call

/-- rfc6031.py:298-299 `class at_pskc_keyUsage(PSKCKeyUsages)` -/
def at_pskc_keyUsage : Py.Obj :=
  Rfc6031.PSKCKeyUsages

/-- rfc6031.py:302 -/
def id_pskc_pinPolicy : Py.Obj :=
  (Rfc6031._OID [.oid Rfc6031.id_pskc, .num 25])

/-- rfc6031.py:304-305 `class PINUsageMode(char.UTF8String)` -/
def PINUsageMode__0 : Py.Obj :=
  Py.char.UTF8String

/-- rfc6031.py:307-312 `PINUsageMode.namedValues = ...` -/
def PINUsageMode__1 : Py.Obj :=
  Rfc6031.PINUsageMode__0.unusedNamedValues [("local", "Local"), ("prepend", "Prepend"), ("append", "Append"), ("algorithmic", "Algorithmic")]

/-- rfc6031.py:314-315 `PINUsageMode.subtypeSpec = ...` -/
def PINUsageMode : Py.Obj :=
  Rfc6031.PINUsageMode__1.setSubtypeSpec (Py.SingleValueConstraint [(Py.str "Local"), (Py.str "Prepend"), (Py.str "Append"), (Py.str "Algorithmic")])

/-- rfc6031.py:317-318 `class PINPolicy(univ.Sequence)` -/
def PINPolicy__0 : Py.Obj :=
  Py.univ.Sequence

/-- rfc6031.py:320-336 `PINPolicy.componentType = ...` -/
def PINPolicy : Py.Obj :=
  Rfc6031.PINPolicy__0.setComponentType (Py.NamedTypes [
    Py.OptionalNamedType "pinKeyId" (Py.char.UTF8String.call.implicitTag (Py.Tag .context false 0)),
    Py.NamedType "pinUsageMode" (Rfc6031.PINUsageMode.call.implicitTag (Py.Tag .context false 1)),
    Py.OptionalNamedType "maxFailedAttempts" ((Py.univ.Integer.call.addSubtypeSpec (Py.ValueRangeConstraint (.fin 0) Rfc6031.MAX)).implicitTag (Py.Tag .context false 2)),
    Py.OptionalNamedType "minLength" ((Py.univ.Integer.call.addSubtypeSpec (Py.ValueRangeConstraint (.fin 0) Rfc6031.MAX)).implicitTag (Py.Tag .context false 3)),
    Py.OptionalNamedType "maxLength" ((Py.univ.Integer.call.addSubtypeSpec (Py.ValueRangeConstraint (.fin 0) Rfc6031.MAX)).implicitTag (Py.Tag .context false 4)),
    Py.OptionalNamedType "pinEncoding" (Rfc6031.Encoding.call.implicitTag (Py.Tag .context false 5))])

/-- rfc6031.py:338-339 `class at_pskc_pinPolicy(PINPolicy)` -/
def at_pskc_pinPolicy : Py.Obj :=
  Rfc6031.PINPolicy

/-- rfc6031.py:344-354 -/
def sKeyPkgAttributesMap : Py.Entries :=
  [(Rfc6031.id_pskc_manufacturer.value, Rfc6031.at_pskc_manufacturer.call.ty),
    (Rfc6031.id_pskc_serialNo.value, Rfc6031.at_pskc_serialNo.call.ty),
    (Rfc6031.id_pskc_model.value, Rfc6031.at_pskc_model.call.ty),
    (Rfc6031.id_pskc_issueNo.value, Rfc6031.at_pskc_issueNo.call.ty),
    (Rfc6031.id_pskc_deviceBinding.value, Rfc6031.at_pskc_deviceBinding.call.ty),
    (Rfc6031.id_pskc_deviceStartDate.value, Rfc6031.at_pskc_deviceStartDate.call.ty),
    (Rfc6031.id_pskc_deviceExpiryDate.value, Rfc6031.at_pskc_deviceExpiryDate.call.ty),
    (Rfc6031.id_pskc_moduleId.value, Rfc6031.at_pskc_moduleId.call.ty),
    (Rfc6031.id_pskc_deviceUserId.value, Rfc6031.at_pskc_deviceUserId.call.ty)]

/-- rfc6031.py:359-378 -/
def sKeyAttributesMap : Py.Entries :=
  [(Rfc6031.id_pskc_keyId.value, Rfc6031.at_pskc_keyId.call.ty),
    (Rfc6031.id_pskc_algorithm.value, Rfc6031.at_pskc_algorithm.call.ty),
    (Rfc6031.id_pskc_issuer.value, Rfc6031.at_pskc_issuer.call.ty),
    (Rfc6031.id_pskc_keyProfileId.value, Rfc6031.at_pskc_keyProfileId.call.ty),
    (Rfc6031.id_pskc_keyReference.value, Rfc6031.at_pskc_keyReference.call.ty),
    (Rfc6031.id_pskc_friendlyName.value, Rfc6031.at_pskc_friendlyName.call.ty),
    (Rfc6031.id_pskc_algorithmParameters.value, Rfc6031.at_pskc_algorithmParameters.call.ty),
    (Rfc6031.id_pskc_counter.value, Rfc6031.at_pskc_counter.call.ty),
    (Rfc6031.id_pskc_time.value, Rfc6031.at_pskc_time.call.ty),
    (Rfc6031.id_pskc_timeInterval.value, Rfc6031.at_pskc_timeInterval.call.ty),
    (Rfc6031.id_pskc_timeDrift.value, Rfc6031.at_pskc_timeDrift.call.ty),
    (Rfc6031.id_pskc_valueMAC.value, Rfc6031.at_pskc_valueMAC.call.ty),
    (Rfc6031.id_pskc_keyUserId.value, Rfc6031.at_pskc_keyUserId.call.ty),
    (Rfc6031.id_pskc_keyStartDate.value, Rfc6031.at_pskc_keyStartDate.call.ty),
    (Rfc6031.id_pskc_keyExpiryDate.value, Rfc6031.at_pskc_keyExpiryDate.call.ty),
    (Rfc6031.id_pskc_numberOfTransactions.value, Rfc6031.at_pskc_numberOfTransactions.call.ty),
    (Rfc6031.id_pskc_keyUsages.value, Rfc6031.at_pskc_keyUsage.call.ty),
    (Rfc6031.id_pskc_pinPolicy.value, Rfc6031.at_pskc_pinPolicy.call.ty)]

/-- rfc6031.py:384-385 `class AttributeType(univ.ObjectIdentifier)` -/
def AttributeType : Py.Obj :=
  Py.univ.ObjectIdentifier

/-- rfc6031.py:388-389 `class AttributeValue(univ.Any)` -/
def AttributeValue : Py.Obj :=
  Py.univ.Any

/-- rfc6031.py:392-393 `class SKeyAttribute(univ.Sequence)` -/
def SKeyAttribute__0 : Py.Obj :=
  Py.univ.Sequence

/-- rfc6031.py:395-401 `SKeyAttribute.componentType = ...` -/
def SKeyAttribute : Py.Obj :=
  Rfc6031.SKeyAttribute__0.setComponentType (Py.NamedTypes [
    Py.NamedType "attrType" Rfc6031.AttributeType.call,
    Py.NamedType "attrValues" (Py.univ.SetOf.call.setComponentTypeOf Rfc6031.AttributeValue.call) (openType := some (Py.OpenType "attrType" (Py.map 26 "rfc6031.sKeyAttributesMap")))])

/-- rfc6031.py:404-405 `class SKeyPkgAttribute(univ.Sequence)` -/
def SKeyPkgAttribute__0 : Py.Obj :=
  Py.univ.Sequence

/-- rfc6031.py:407-413 `SKeyPkgAttribute.componentType = ...` -/
def SKeyPkgAttribute : Py.Obj :=
  Rfc6031.SKeyPkgAttribute__0.setComponentType (Py.NamedTypes [
    Py.NamedType "attrType" Rfc6031.AttributeType.call,
    Py.NamedType "attrValues" (Py.univ.SetOf.call.setComponentTypeOf Rfc6031.AttributeValue.call) (openType := some (Py.OpenType "attrType" (Py.map 27 "rfc6031.sKeyPkgAttributesMap")))])

/-- rfc6031.py:418 -/
def id_ct_KP_sKeyPackage : Py.Obj :=
  (Py.univ.ObjectIdentifier.call.callArcs [1, 2, 840, 113549, 1, 9, 16, 1, 25])

/-- rfc6031.py:421-422 `class KeyPkgVersion(univ.Integer)` -/
def KeyPkgVersion__0 : Py.Obj :=
  Py.univ.Integer

/-- rfc6031.py:424-426 `KeyPkgVersion.namedValues = ...` -/
def KeyPkgVersion : Py.Obj :=
  Rfc6031.KeyPkgVersion__0.setNamedValues (Py.NamedValues [("v1", 1)])

/-- rfc6031.py:429-430 `class OneSymmetricKey(univ.Sequence)` -/
def OneSymmetricKey__0 : Py.Obj :=
  Py.univ.Sequence

/-- rfc6031.py:432-437 `OneSymmetricKey.componentType = ...` -/
def OneSymmetricKey__1 : Py.Obj :=
  Rfc6031.OneSymmetricKey__0.setComponentType (Py.NamedTypes [
    Py.OptionalNamedType "sKeyAttrs" ((Py.univ.SequenceOf.call.setComponentTypeOf Rfc6031.SKeyAttribute.call).addSubtypeSpec (Py.ValueSizeConstraint (.fin 1) Rfc6031.MAX)),
    Py.OptionalNamedType "sKey" Py.univ.OctetString.call])

/-- rfc6031.py:439 `OneSymmetricKey.sizeSpec = ...` -/
def OneSymmetricKey : Py.Obj :=
  Rfc6031.OneSymmetricKey__1.setSizeSpec (Py.univ.Sequence.sizeSpec.add (Py.ValueSizeConstraint (.fin 1) (.fin 2)))

/-- rfc6031.py:442-443 `class SymmetricKeys(univ.SequenceOf)` -/
def SymmetricKeys__0 : Py.Obj :=
  Py.univ.SequenceOf

/-- rfc6031.py:445 `SymmetricKeys.componentType = ...` -/
def SymmetricKeys__1 : Py.Obj :=
  Rfc6031.SymmetricKeys__0.setComponentTypeOf Rfc6031.OneSymmetricKey.call

/-- rfc6031.py:446 `SymmetricKeys.subtypeSpec = ...` -/
def SymmetricKeys : Py.Obj :=
  Rfc6031.SymmetricKeys__1.setSubtypeSpec (Py.ValueSizeConstraint (.fin 1) Rfc6031.MAX)

/-- rfc6031.py:449-450 `class SymmetricKeyPackage(univ.Sequence)` -/
def SymmetricKeyPackage__0 : Py.Obj :=
  Py.univ.Sequence

/-- rfc6031.py:452-459 `SymmetricKeyPackage.componentType = ...` -/
def SymmetricKeyPackage : Py.Obj :=
  Rfc6031.SymmetricKeyPackage__0.setComponentType (Py.NamedTypes [
    Py.DefaultedNamedType "version" (Rfc6031.KeyPkgVersion.call.callStr "v1"),
    Py.OptionalNamedType "sKeyPkgAttrs" (((Py.univ.SequenceOf.call.setComponentTypeOf Rfc6031.SKeyPkgAttribute.call).implicitTag (Py.Tag .context false 0)).addSubtypeSpec (Py.ValueSizeConstraint (.fin 1) Rfc6031.MAX)),
    Py.NamedType "sKeys" Rfc6031.SymmetricKeys.call])

/-- rfc6031.py:465-467 -/
def _cmsContentTypesMapUpdate : Py.Entries :=
  [(Rfc6031.id_ct_KP_sKeyPackage.value, Rfc6031.SymmetricKeyPackage.call.ty)]

/-- Modules of this package imported by rfc6031.py, in textual order. -/
def imports : List Py.Ident :=
  [(Py.mod 16 "rfc5652"), (Py.mod 86 "rfc6019")]

/-- Dictionary operations executed when rfc6031.py is imported, in program order. -/
def effects : List Py.Effect :=
  [.create (Py.map 27 "rfc6031.sKeyPkgAttributesMap") Rfc6031.sKeyPkgAttributesMap /- rfc6031.py:344-354 -/,
   .create (Py.map 26 "rfc6031.sKeyAttributesMap") Rfc6031.sKeyAttributesMap /- rfc6031.py:359-378 -/,
   .create (Py.map 104 "rfc6031._cmsContentTypesMapUpdate") Rfc6031._cmsContentTypesMapUpdate /- rfc6031.py:465-467 -/,
   .update (Py.map 13 "rfc5652.cmsContentTypesMap") Rfc6031._cmsContentTypesMapUpdate /- rfc6031.py:469 -/]

/-- ASN.1 types rfc6031.py binds at module level (final version of each name), plus nested classes. -/
def classes : List (String × Py.Obj) :=
  [("rfc6031.at_pskc_manufacturer", Rfc6031.at_pskc_manufacturer),
   ("rfc6031.at_pskc_serialNo", Rfc6031.at_pskc_serialNo),
   ("rfc6031.at_pskc_model", Rfc6031.at_pskc_model),
   ("rfc6031.at_pskc_issueNo", Rfc6031.at_pskc_issueNo),
   ("rfc6031.at_pskc_deviceBinding", Rfc6031.at_pskc_deviceBinding),
   ("rfc6031.at_pskc_deviceStartDate", Rfc6031.at_pskc_deviceStartDate),
   ("rfc6031.at_pskc_deviceExpiryDate", Rfc6031.at_pskc_deviceExpiryDate),
   ("rfc6031.at_pskc_moduleId", Rfc6031.at_pskc_moduleId),
   ("rfc6031.at_pskc_deviceUserId", Rfc6031.at_pskc_deviceUserId),
   ("rfc6031.at_pskc_keyUserId", Rfc6031.at_pskc_keyUserId),
   ("rfc6031.at_pskc_algorithm", Rfc6031.at_pskc_algorithm),
   ("rfc6031.at_pskc_issuer", Rfc6031.at_pskc_issuer),
   ("rfc6031.at_pskc_keyProfileId", Rfc6031.at_pskc_keyProfileId),
   ("rfc6031.at_pskc_keyReference", Rfc6031.at_pskc_keyReference),
   ("rfc6031.FriendlyName", Rfc6031.FriendlyName),
   ("rfc6031.at_pskc_friendlyName", Rfc6031.at_pskc_friendlyName),
   ("rfc6031.Encoding", Rfc6031.Encoding),
   ("rfc6031.ChallengeFormat", Rfc6031.ChallengeFormat),
   ("rfc6031.ResponseFormat", Rfc6031.ResponseFormat),
   ("rfc6031.PSKCAlgorithmParameters", Rfc6031.PSKCAlgorithmParameters),
   ("rfc6031.at_pskc_algorithmParameters", Rfc6031.at_pskc_algorithmParameters),
   ("rfc6031.at_pskc_counter", Rfc6031.at_pskc_counter),
   ("rfc6031.at_pskc_time", Rfc6031.at_pskc_time),
   ("rfc6031.at_pskc_timeInterval", Rfc6031.at_pskc_timeInterval),
   ("rfc6031.at_pskc_timeDrift", Rfc6031.at_pskc_timeDrift),
   ("rfc6031.ValueMac", Rfc6031.ValueMac),
   ("rfc6031.at_pskc_valueMAC", Rfc6031.at_pskc_valueMAC),
   ("rfc6031.at_pskc_keyId", Rfc6031.at_pskc_keyId),
   ("rfc6031.at_pskc_keyStartDate", Rfc6031.at_pskc_keyStartDate),
   ("rfc6031.at_pskc_keyExpiryDate", Rfc6031.at_pskc_keyExpiryDate),
   ("rfc6031.at_pskc_numberOfTransactions", Rfc6031.at_pskc_numberOfTransactions),
   ("rfc6031.PSKCKeyUsage", Rfc6031.PSKCKeyUsage),
   ("rfc6031.PSKCKeyUsages", Rfc6031.PSKCKeyUsages),
   ("rfc6031.at_pskc_keyUsage", Rfc6031.at_pskc_keyUsage),
   ("rfc6031.PINUsageMode", Rfc6031.PINUsageMode),
   ("rfc6031.PINPolicy", Rfc6031.PINPolicy),
   ("rfc6031.at_pskc_pinPolicy", Rfc6031.at_pskc_pinPolicy),
   ("rfc6031.AttributeType", Rfc6031.AttributeType),
   ("rfc6031.AttributeValue", Rfc6031.AttributeValue),
   ("rfc6031.SKeyAttribute", Rfc6031.SKeyAttribute),
   ("rfc6031.SKeyPkgAttribute", Rfc6031.SKeyPkgAttribute),
   ("rfc6031.KeyPkgVersion", Rfc6031.KeyPkgVersion),
   ("rfc6031.OneSymmetricKey", Rfc6031.OneSymmetricKey),
   ("rfc6031.SymmetricKeys", Rfc6031.SymmetricKeys),
   ("rfc6031.SymmetricKeyPackage", Rfc6031.SymmetricKeyPackage)]

/-- pyasn1 instances rfc6031.py binds at module level. -/
def objects : List (String × Py.Obj) :=
  [("rfc6031.id_pskc", Rfc6031.id_pskc),
   ("rfc6031.id_pskc_manufacturer", Rfc6031.id_pskc_manufacturer),
   ("rfc6031.id_pskc_serialNo", Rfc6031.id_pskc_serialNo),
   ("rfc6031.id_pskc_model", Rfc6031.id_pskc_model),
   ("rfc6031.id_pskc_issueNo", Rfc6031.id_pskc_issueNo),
   ("rfc6031.id_pskc_deviceBinding", Rfc6031.id_pskc_deviceBinding),
   ("rfc6031.id_pskc_deviceStartDate", Rfc6031.id_pskc_deviceStartDate),
   ("rfc6031.id_pskc_deviceExpiryDate", Rfc6031.id_pskc_deviceExpiryDate),
   ("rfc6031.id_pskc_moduleId", Rfc6031.id_pskc_moduleId),
   ("rfc6031.id_pskc_deviceUserId", Rfc6031.id_pskc_deviceUserId),
   ("rfc6031.id_pskc_keyId", Rfc6031.id_pskc_keyId),
   ("rfc6031.id_pskc_algorithm", Rfc6031.id_pskc_algorithm),
   ("rfc6031.id_pskc_issuer", Rfc6031.id_pskc_issuer),
   ("rfc6031.id_pskc_keyProfileId", Rfc6031.id_pskc_keyProfileId),
   ("rfc6031.id_pskc_keyReference", Rfc6031.id_pskc_keyReference),
   ("rfc6031.id_pskc_friendlyName", Rfc6031.id_pskc_friendlyName),
   ("rfc6031.id_pskc_algorithmParameters", Rfc6031.id_pskc_algorithmParameters),
   ("rfc6031.id_pskc_counter", Rfc6031.id_pskc_counter),
   ("rfc6031.id_pskc_time", Rfc6031.id_pskc_time),
   ("rfc6031.id_pskc_timeInterval", Rfc6031.id_pskc_timeInterval),
   ("rfc6031.id_pskc_timeDrift", Rfc6031.id_pskc_timeDrift),
   ("rfc6031.id_pskc_valueMAC", Rfc6031.id_pskc_valueMAC),
   ("rfc6031.id_pskc_keyUserId", Rfc6031.id_pskc_keyUserId),
   ("rfc6031.id_pskc_keyStartDate", Rfc6031.id_pskc_keyStartDate),
   ("rfc6031.id_pskc_keyExpiryDate", Rfc6031.id_pskc_keyExpiryDate),
   ("rfc6031.id_pskc_numberOfTransactions", Rfc6031.id_pskc_numberOfTransactions),
   ("rfc6031.id_pskc_keyUsages", Rfc6031.id_pskc_keyUsages),
   ("rfc6031.id_pskc_pinPolicy", Rfc6031.id_pskc_pinPolicy),
   ("rfc6031.id_ct_KP_sKeyPackage", Rfc6031.id_ct_KP_sKeyPackage)]

/-- pyasn1 instances rfc6031.py fills in by item assignment. -/
def protos : List (String × Py.Proto) :=
  []

/-- Every place of rfc6031.py that instantiates a class of the package: where, the class as it is
at that point, and the class as it is when the import has finished. -/
def snapshots : List Py.Snapshot :=
  [⟨"rfc6031.py:165", Rfc6031.Encoding, Rfc6031.Encoding⟩,
   ⟨"rfc6031.py:178", Rfc6031.Encoding, Rfc6031.Encoding⟩,
   ⟨"rfc6031.py:190", Rfc6031.ChallengeFormat, Rfc6031.ChallengeFormat⟩,
   ⟨"rfc6031.py:192", Rfc6031.ResponseFormat, Rfc6031.ResponseFormat⟩,
   ⟨"rfc6031.py:296", Rfc6031.PSKCKeyUsage, Rfc6031.PSKCKeyUsage⟩,
   ⟨"rfc6031.py:323", Rfc6031.PINUsageMode, Rfc6031.PINUsageMode⟩,
   ⟨"rfc6031.py:334", Rfc6031.Encoding, Rfc6031.Encoding⟩,
   ⟨"rfc6031.py:345", Rfc6031.at_pskc_manufacturer, Rfc6031.at_pskc_manufacturer⟩,
   ⟨"rfc6031.py:346", Rfc6031.at_pskc_serialNo, Rfc6031.at_pskc_serialNo⟩,
   ⟨"rfc6031.py:347", Rfc6031.at_pskc_model, Rfc6031.at_pskc_model⟩,
   ⟨"rfc6031.py:348", Rfc6031.at_pskc_issueNo, Rfc6031.at_pskc_issueNo⟩,
   ⟨"rfc6031.py:349", Rfc6031.at_pskc_deviceBinding, Rfc6031.at_pskc_deviceBinding⟩,
   ⟨"rfc6031.py:350", Rfc6031.at_pskc_deviceStartDate, Rfc6031.at_pskc_deviceStartDate⟩,
   ⟨"rfc6031.py:351", Rfc6031.at_pskc_deviceExpiryDate, Rfc6031.at_pskc_deviceExpiryDate⟩,
   ⟨"rfc6031.py:352", Rfc6031.at_pskc_moduleId, Rfc6031.at_pskc_moduleId⟩,
   ⟨"rfc6031.py:353", Rfc6031.at_pskc_deviceUserId, Rfc6031.at_pskc_deviceUserId⟩,
   ⟨"rfc6031.py:360", Rfc6031.at_pskc_keyId, Rfc6031.at_pskc_keyId⟩,
   ⟨"rfc6031.py:361", Rfc6031.at_pskc_algorithm, Rfc6031.at_pskc_algorithm⟩,
   ⟨"rfc6031.py:362", Rfc6031.at_pskc_issuer, Rfc6031.at_pskc_issuer⟩,
   ⟨"rfc6031.py:363", Rfc6031.at_pskc_keyProfileId, Rfc6031.at_pskc_keyProfileId⟩,
   ⟨"rfc6031.py:364", Rfc6031.at_pskc_keyReference, Rfc6031.at_pskc_keyReference⟩,
   ⟨"rfc6031.py:365", Rfc6031.at_pskc_friendlyName, Rfc6031.at_pskc_friendlyName⟩,
   ⟨"rfc6031.py:366", Rfc6031.at_pskc_algorithmParameters, Rfc6031.at_pskc_algorithmParameters⟩,
   ⟨"rfc6031.py:367", Rfc6031.at_pskc_counter, Rfc6031.at_pskc_counter⟩,
   ⟨"rfc6031.py:368", Rfc6031.at_pskc_time, Rfc6031.at_pskc_time⟩,
   ⟨"rfc6031.py:369", Rfc6031.at_pskc_timeInterval, Rfc6031.at_pskc_timeInterval⟩,
   ⟨"rfc6031.py:370", Rfc6031.at_pskc_timeDrift, Rfc6031.at_pskc_timeDrift⟩,
   ⟨"rfc6031.py:371", Rfc6031.at_pskc_valueMAC, Rfc6031.at_pskc_valueMAC⟩,
   ⟨"rfc6031.py:372", Rfc6031.at_pskc_keyUserId, Rfc6031.at_pskc_keyUserId⟩,
   ⟨"rfc6031.py:373", Rfc6031.at_pskc_keyStartDate, Rfc6031.at_pskc_keyStartDate⟩,
   ⟨"rfc6031.py:374", Rfc6031.at_pskc_keyExpiryDate, Rfc6031.at_pskc_keyExpiryDate⟩,
   ⟨"rfc6031.py:375", Rfc6031.at_pskc_numberOfTransactions, Rfc6031.at_pskc_numberOfTransactions⟩,
   ⟨"rfc6031.py:376", Rfc6031.at_pskc_keyUsage, Rfc6031.at_pskc_keyUsage⟩,
   ⟨"rfc6031.py:377", Rfc6031.at_pskc_pinPolicy, Rfc6031.at_pskc_pinPolicy⟩,
   ⟨"rfc6031.py:396", Rfc6031.AttributeType, Rfc6031.AttributeType⟩,
   ⟨"rfc6031.py:398", Rfc6031.AttributeValue, Rfc6031.AttributeValue⟩,
   ⟨"rfc6031.py:408", Rfc6031.AttributeType, Rfc6031.AttributeType⟩,
   ⟨"rfc6031.py:410", Rfc6031.AttributeValue, Rfc6031.AttributeValue⟩,
   ⟨"rfc6031.py:434", Rfc6031.SKeyAttribute, Rfc6031.SKeyAttribute⟩,
   ⟨"rfc6031.py:445", Rfc6031.OneSymmetricKey, Rfc6031.OneSymmetricKey⟩,
   ⟨"rfc6031.py:453", Rfc6031.KeyPkgVersion, Rfc6031.KeyPkgVersion⟩,
   ⟨"rfc6031.py:455", Rfc6031.SKeyPkgAttribute, Rfc6031.SKeyPkgAttribute⟩,
   ⟨"rfc6031.py:458", Rfc6031.SymmetricKeys, Rfc6031.SymmetricKeys⟩,
   ⟨"rfc6031.py:466", Rfc6031.SymmetricKeyPackage, Rfc6031.SymmetricKeyPackage⟩]

/-- Functions rfc6031.py defines. -/
def builders : List (String × (List Py.OidArg → Py.Obj)) :=
  [("rfc6031._OID", Rfc6031._OID)]

def asModule : Py.Module :=
  { id := (Py.mod 87 "rfc6031"), imports := imports, effects := effects, classes := classes, objects := objects, protos := protos, snapshots := snapshots, builders := builders }

end Rfc6031
end Verif
