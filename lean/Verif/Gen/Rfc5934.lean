import Verif.Py.Obj
import Verif.Gen.Rfc2985
import Verif.Gen.Rfc5280
import Verif.Gen.Rfc5652
import Verif.Gen.Rfc5914

/-! Transcription of /repo/pyasn1_modules/rfc5934.py (generated by tools/gen.py). -/

namespace Verif
namespace Rfc5934

/-- rfc5934.py:20 -/
def MAX : Py.Bound :=
  .inf

/-- rfc5934.py:23-30 `def _OID(*components)` -/
def _OID (components : List Py.OidArg) : Py.Obj :=
  match Py.oidLoop [] components with
  | some output => Py.univ.ObjectIdentifier.call.callArcs output
  | none => .fail "OID without value"

/-- rfc5934.py:35 alias of `rfc2985.SingleAttribute` -/
def SingleAttribute : Py.Obj :=
  Rfc2985.SingleAttribute

/-- rfc5934.py:40 alias of `rfc5914.CertPathControls` -/
def CertPathControls : Py.Obj :=
  Rfc5914.CertPathControls

/-- rfc5934.py:42 alias of `rfc5914.TrustAnchorChoice` -/
def TrustAnchorChoice : Py.Obj :=
  Rfc5914.TrustAnchorChoice

/-- rfc5934.py:44 alias of `rfc5914.TrustAnchorTitle` -/
def TrustAnchorTitle : Py.Obj :=
  Rfc5914.TrustAnchorTitle

/-- rfc5934.py:49 alias of `rfc5280.AlgorithmIdentifier` -/
def AlgorithmIdentifier : Py.Obj :=
  Rfc5280.AlgorithmIdentifier

/-- rfc5934.py:51 alias of `rfc5280.AnotherName` -/
def AnotherName : Py.Obj :=
  Rfc5280.AnotherName

/-- rfc5934.py:53 alias of `rfc5280.Attribute` -/
def Attribute : Py.Obj :=
  Rfc5280.Attribute

/-- rfc5934.py:55 alias of `rfc5280.Certificate` -/
def Certificate : Py.Obj :=
  Rfc5280.Certificate

/-- rfc5934.py:57 alias of `rfc5280.CertificateSerialNumber` -/
def CertificateSerialNumber : Py.Obj :=
  Rfc5280.CertificateSerialNumber

/-- rfc5934.py:59 alias of `rfc5280.Extension` -/
def Extension : Py.Obj :=
  Rfc5280.Extension

/-- rfc5934.py:61 alias of `rfc5280.Extensions` -/
def Extensions : Py.Obj :=
  Rfc5280.Extensions

/-- rfc5934.py:63 alias of `rfc5280.KeyIdentifier` -/
def KeyIdentifier : Py.Obj :=
  Rfc5280.KeyIdentifier

/-- rfc5934.py:65 alias of `rfc5280.Name` -/
def Name : Py.Obj :=
  Rfc5280.Name

/-- rfc5934.py:67 alias of `rfc5280.SubjectPublicKeyInfo` -/
def SubjectPublicKeyInfo : Py.Obj :=
  Rfc5280.SubjectPublicKeyInfo

/-- rfc5934.py:69 alias of `rfc5280.TBSCertificate` -/
def TBSCertificate : Py.Obj :=
  Rfc5280.TBSCertificate

/-- rfc5934.py:71 alias of `rfc5280.Validity` -/
def Validity : Py.Obj :=
  Rfc5280.Validity

/-- rfc5934.py:76 -/
def id_tamp : Py.Obj :=
  (Py.univ.ObjectIdentifier.call.callArcs [2, 16, 840, 1, 101, 2, 1, 2, 77])

/-- rfc5934.py:81 -/
def id_ct_TAMP_statusQuery : Py.Obj :=
  (Rfc5934._OID [.oid Rfc5934.id_tamp, .num 1])

/-- rfc5934.py:84-85 `class TAMPVersion(univ.Integer)` -/
def TAMPVersion__0 : Py.Obj :=
  Py.univ.Integer

/-- rfc5934.py:87-90 `TAMPVersion.namedValues = ...` -/
def TAMPVersion : Py.Obj :=
  Rfc5934.TAMPVersion__0.setNamedValues (Py.NamedValues [("v1", 1), ("v2", 2)])

/-- rfc5934.py:93-94 `class TerseOrVerbose(univ.Enumerated)` -/
def TerseOrVerbose__0 : Py.Obj :=
  Py.univ.Enumerated

/-- rfc5934.py:96-99 `TerseOrVerbose.namedValues = ...` -/
def TerseOrVerbose : Py.Obj :=
  Rfc5934.TerseOrVerbose__0.setNamedValues (Py.NamedValues [("terse", 1), ("verbose", 2)])

/-- rfc5934.py:102-103 `class HardwareSerialEntry(univ.Choice)` -/
def HardwareSerialEntry__0 : Py.Obj :=
  Py.univ.Choice

/-- rfc5934.py:105-113 `HardwareSerialEntry.componentType = ...` -/
def HardwareSerialEntry : Py.Obj :=
  Rfc5934.HardwareSerialEntry__0.setComponentType (Py.NamedTypes [
    Py.NamedType "all" Py.univ.Null.call,
    Py.NamedType "single" Py.univ.OctetString.call,
    Py.NamedType "block" (Py.univ.Sequence.call.setComponentType (Py.NamedTypes [
    Py.NamedType "low" Py.univ.OctetString.call,
    Py.NamedType "high" Py.univ.OctetString.call]))])

/-- rfc5934.py:116-117 `class HardwareModules(univ.Sequence)` -/
def HardwareModules__0 : Py.Obj :=
  Py.univ.Sequence

/-- rfc5934.py:119-124 `HardwareModules.componentType = ...` -/
def HardwareModules : Py.Obj :=
  Rfc5934.HardwareModules__0.setComponentType (Py.NamedTypes [
    Py.NamedType "hwType" Py.univ.ObjectIdentifier.call,
    Py.NamedType "hwSerialEntries" ((Py.univ.SequenceOf.call.setComponentTypeOf Rfc5934.HardwareSerialEntry.call).addSubtypeSpec (Py.ValueSizeConstraint (.fin 1) Rfc5934.MAX))])

/-- rfc5934.py:127-128 `class HardwareModuleIdentifierList(univ.SequenceOf)` -/
def HardwareModuleIdentifierList__0 : Py.Obj :=
  Py.univ.SequenceOf

/-- rfc5934.py:130 `HardwareModuleIdentifierList.componentType = ...` -/
def HardwareModuleIdentifierList__1 : Py.Obj :=
  Rfc5934.HardwareModuleIdentifierList__0.setComponentTypeOf Rfc5934.HardwareModules.call

/-- rfc5934.py:131 `HardwareModuleIdentifierList.subtypeSpec = ...` -/
def HardwareModuleIdentifierList : Py.Obj :=
  Rfc5934.HardwareModuleIdentifierList__1.setSubtypeSpec (Py.ValueSizeConstraint (.fin 1) Rfc5934.MAX)

/-- rfc5934.py:134-135 `class Community(univ.ObjectIdentifier)` -/
def Community : Py.Obj :=
  Py.univ.ObjectIdentifier

/-- rfc5934.py:138-139 `class CommunityIdentifierList(univ.SequenceOf)` -/
def CommunityIdentifierList__0 : Py.Obj :=
  Py.univ.SequenceOf

/-- rfc5934.py:141 `CommunityIdentifierList.componentType = ...` -/
def CommunityIdentifierList__1 : Py.Obj :=
  Rfc5934.CommunityIdentifierList__0.setComponentTypeOf Rfc5934.Community.call

/-- rfc5934.py:142 `CommunityIdentifierList.subtypeSpec = ...` -/
def CommunityIdentifierList : Py.Obj :=
  Rfc5934.CommunityIdentifierList__1.setSubtypeSpec (Py.ValueSizeConstraint (.fin 0) Rfc5934.MAX)

/-- rfc5934.py:145-146 `class TargetIdentifier(univ.Choice)` -/
def TargetIdentifier__0 : Py.Obj :=
  Py.univ.Choice

/-- rfc5934.py:148-159 `TargetIdentifier.componentType = ...` -/
def TargetIdentifier : Py.Obj :=
  Rfc5934.TargetIdentifier__0.setComponentType (Py.NamedTypes [
    Py.NamedType "hwModules" (Rfc5934.HardwareModuleIdentifierList.call.implicitTag (Py.Tag .context false 1)),
    Py.NamedType "communities" (Rfc5934.CommunityIdentifierList.call.implicitTag (Py.Tag .context false 2)),
    Py.NamedType "allModules" (Py.univ.Null.call.implicitTag (Py.Tag .context false 3)),
    Py.NamedType "uri" (Py.char.IA5String.call.implicitTag (Py.Tag .context false 4)),
    Py.NamedType "otherName" (Rfc5934.AnotherName.call.implicitTag (Py.Tag .context false 5))])

/-- rfc5934.py:162-163 `class SeqNumber(univ.Integer)` -/
def SeqNumber__0 : Py.Obj :=
  Py.univ.Integer

/-- rfc5934.py:165 `SeqNumber.subtypeSpec = ...` -/
def SeqNumber : Py.Obj :=
  Rfc5934.SeqNumber__0.setSubtypeSpec (Py.ValueRangeConstraint (.fin 0) (.fin 9223372036854775807))

/-- rfc5934.py:168-169 `class TAMPMsgRef(univ.Sequence)` -/
def TAMPMsgRef__0 : Py.Obj :=
  Py.univ.Sequence

/-- rfc5934.py:171-174 `TAMPMsgRef.componentType = ...` -/
def TAMPMsgRef : Py.Obj :=
  Rfc5934.TAMPMsgRef__0.setComponentType (Py.NamedTypes [
    Py.NamedType "target" Rfc5934.TargetIdentifier.call,
    Py.NamedType "seqNum" Rfc5934.SeqNumber.call])

/-- rfc5934.py:177-178 `class TAMPStatusQuery(univ.Sequence)` -/
def TAMPStatusQuery__0 : Py.Obj :=
  Py.univ.Sequence

/-- rfc5934.py:180-188 `TAMPStatusQuery.componentType = ...` -/
def TAMPStatusQuery : Py.Obj :=
  Rfc5934.TAMPStatusQuery__0.setComponentType (Py.NamedTypes [
    Py.DefaultedNamedType "version" ((Rfc5934.TAMPVersion.call.implicitTag (Py.Tag .context false 0)).callStr "v2"),
    Py.DefaultedNamedType "terse" ((Rfc5934.TerseOrVerbose.call.implicitTag (Py.Tag .context false 1)).callStr "verbose"),
    Py.NamedType "query" Rfc5934.TAMPMsgRef.call])

/-- rfc5934.py:191 -/
def tamp_status_query__0 : Py.Proto :=
  { obj := Rfc5652.ContentInfo.call }

/-- rfc5934.py:192 `tamp_status_query['contentType'] = ...` -/
def tamp_status_query__1 : Py.Proto :=
  Rfc5934.tamp_status_query__0.set "contentType" (.obj Rfc5934.id_ct_TAMP_statusQuery)

/-- rfc5934.py:193 `tamp_status_query['content'] = ...` -/
def tamp_status_query : Py.Proto :=
  Rfc5934.tamp_status_query__1.set "content" (.obj Rfc5934.TAMPStatusQuery.call)

/-- rfc5934.py:198 -/
def id_ct_TAMP_statusResponse : Py.Obj :=
  (Rfc5934._OID [.oid Rfc5934.id_tamp, .num 2])

/-- rfc5934.py:201-202 `class KeyIdentifiers(univ.SequenceOf)` -/
def KeyIdentifiers__0 : Py.Obj :=
  Py.univ.SequenceOf

/-- rfc5934.py:204 `KeyIdentifiers.componentType = ...` -/
def KeyIdentifiers__1 : Py.Obj :=
  Rfc5934.KeyIdentifiers__0.setComponentTypeOf Rfc5934.KeyIdentifier.call

/-- rfc5934.py:205 `KeyIdentifiers.subtypeSpec = ...` -/
def KeyIdentifiers : Py.Obj :=
  Rfc5934.KeyIdentifiers__1.setSubtypeSpec (Py.ValueSizeConstraint (.fin 1) Rfc5934.MAX)

/-- rfc5934.py:208-209 `class TrustAnchorChoiceList(univ.SequenceOf)` -/
def TrustAnchorChoiceList__0 : Py.Obj :=
  Py.univ.SequenceOf

/-- rfc5934.py:211 `TrustAnchorChoiceList.componentType = ...` -/
def TrustAnchorChoiceList__1 : Py.Obj :=
  Rfc5934.TrustAnchorChoiceList__0.setComponentTypeOf Rfc5934.TrustAnchorChoice.call

/-- rfc5934.py:212 `TrustAnchorChoiceList.subtypeSpec = ...` -/
def TrustAnchorChoiceList : Py.Obj :=
  Rfc5934.TrustAnchorChoiceList__1.setSubtypeSpec (Py.ValueSizeConstraint (.fin 1) Rfc5934.MAX)

/-- rfc5934.py:215-216 `class TAMPSequenceNumber(univ.Sequence)` -/
def TAMPSequenceNumber__0 : Py.Obj :=
  Py.univ.Sequence

/-- rfc5934.py:218-221 `TAMPSequenceNumber.componentType = ...` -/
def TAMPSequenceNumber : Py.Obj :=
  Rfc5934.TAMPSequenceNumber__0.setComponentType (Py.NamedTypes [
    Py.NamedType "keyId" Rfc5934.KeyIdentifier.call,
    Py.NamedType "seqNumber" Rfc5934.SeqNumber.call])

/-- rfc5934.py:224-225 `class TAMPSequenceNumbers(univ.SequenceOf)` -/
def TAMPSequenceNumbers__0 : Py.Obj :=
  Py.univ.SequenceOf

/-- rfc5934.py:227 `TAMPSequenceNumbers.componentType = ...` -/
def TAMPSequenceNumbers__1 : Py.Obj :=
  Rfc5934.TAMPSequenceNumbers__0.setComponentTypeOf Rfc5934.TAMPSequenceNumber.call

/-- rfc5934.py:228 `TAMPSequenceNumbers.subtypeSpec = ...` -/
def TAMPSequenceNumbers : Py.Obj :=
  Rfc5934.TAMPSequenceNumbers__1.setSubtypeSpec (Py.ValueSizeConstraint (.fin 1) Rfc5934.MAX)

/-- rfc5934.py:231-232 `class TerseStatusResponse(univ.Sequence)` -/
def TerseStatusResponse__0 : Py.Obj :=
  Py.univ.Sequence

/-- rfc5934.py:234-237 `TerseStatusResponse.componentType = ...` -/
def TerseStatusResponse : Py.Obj :=
  Rfc5934.TerseStatusResponse__0.setComponentType (Py.NamedTypes [
    Py.NamedType "taKeyIds" Rfc5934.KeyIdentifiers.call,
    Py.OptionalNamedType "communities" Rfc5934.CommunityIdentifierList.call])

/-- rfc5934.py:240-241 `class VerboseStatusResponse(univ.Sequence)` -/
def VerboseStatusResponse__0 : Py.Obj :=
  Py.univ.Sequence

/-- rfc5934.py:243-254 `VerboseStatusResponse.componentType = ...` -/
def VerboseStatusResponse : Py.Obj :=
  Rfc5934.VerboseStatusResponse__0.setComponentType (Py.NamedTypes [
    Py.NamedType "taInfo" Rfc5934.TrustAnchorChoiceList.call,
    Py.OptionalNamedType "continPubKeyDecryptAlg" (Rfc5934.AlgorithmIdentifier.call.implicitTag (Py.Tag .context false 0)),
    Py.OptionalNamedType "communities" (Rfc5934.CommunityIdentifierList.call.implicitTag (Py.Tag .context false 1)),
    Py.OptionalNamedType "tampSeqNumbers" (Rfc5934.TAMPSequenceNumbers.call.implicitTag (Py.Tag .context false 2))])

/-- rfc5934.py:257-258 `class StatusResponse(univ.Choice)` -/
def StatusResponse__0 : Py.Obj :=
  Py.univ.Choice

/-- rfc5934.py:260-265 `StatusResponse.componentType = ...` -/
def StatusResponse : Py.Obj :=
  Rfc5934.StatusResponse__0.setComponentType (Py.NamedTypes [
    Py.NamedType "terseResponse" (Rfc5934.TerseStatusResponse.call.implicitTag (Py.Tag .context true 0)),
    Py.NamedType "verboseResponse" (Rfc5934.VerboseStatusResponse.call.implicitTag (Py.Tag .context true 1))])

/-- rfc5934.py:268-269 `class TAMPStatusResponse(univ.Sequence)` -/
def TAMPStatusResponse__0 : Py.Obj :=
  Py.univ.Sequence

/-- rfc5934.py:271-278 `TAMPStatusResponse.componentType = ...` -/
def TAMPStatusResponse : Py.Obj :=
  Rfc5934.TAMPStatusResponse__0.setComponentType (Py.NamedTypes [
    Py.DefaultedNamedType "version" ((Rfc5934.TAMPVersion.call.implicitTag (Py.Tag .context false 0)).callStr "v2"),
    Py.NamedType "query" Rfc5934.TAMPMsgRef.call,
    Py.NamedType "response" Rfc5934.StatusResponse.call,
    Py.DefaultedNamedType "usesApex" (Py.univ.Boolean.call.callInt 1)])

/-- rfc5934.py:281 -/
def tamp_status_response__0 : Py.Proto :=
  { obj := Rfc5652.ContentInfo.call }

/-- rfc5934.py:282 `tamp_status_response['contentType'] = ...` -/
def tamp_status_response__1 : Py.Proto :=
  Rfc5934.tamp_status_response__0.set "contentType" (.obj Rfc5934.id_ct_TAMP_statusResponse)

/-- rfc5934.py:283 `tamp_status_response['content'] = ...` -/
def tamp_status_response : Py.Proto :=
  Rfc5934.tamp_status_response__1.set "content" (.obj Rfc5934.TAMPStatusResponse.call)

/-- rfc5934.py:288 -/
def id_ct_TAMP_update : Py.Obj :=
  (Rfc5934._OID [.oid Rfc5934.id_tamp, .num 3])

/-- rfc5934.py:291-292 `class TBSCertificateChangeInfo(univ.Sequence)` -/
def TBSCertificateChangeInfo__0 : Py.Obj :=
  Py.univ.Sequence

/-- rfc5934.py:294-308 `TBSCertificateChangeInfo.componentType = ...` -/
def TBSCertificateChangeInfo : Py.Obj :=
  Rfc5934.TBSCertificateChangeInfo__0.setComponentType (Py.NamedTypes [
    Py.OptionalNamedType "serialNumber" Rfc5934.CertificateSerialNumber.call,
    Py.OptionalNamedType "signature" (Rfc5934.AlgorithmIdentifier.call.implicitTag (Py.Tag .context false 0)),
    Py.OptionalNamedType "issuer" (Rfc5934.Name.call.implicitTag (Py.Tag .context false 1)),
    Py.OptionalNamedType "validity" (Rfc5934.Validity.call.implicitTag (Py.Tag .context false 2)),
    Py.OptionalNamedType "subject" (Rfc5934.Name.call.implicitTag (Py.Tag .context false 3)),
    Py.NamedType "subjectPublicKeyInfo" (Rfc5934.SubjectPublicKeyInfo.call.implicitTag (Py.Tag .context false 4)),
    Py.OptionalNamedType "exts" (Rfc5934.Extensions.call.explicitTag (Py.Tag .context false 5))])

/-- rfc5934.py:311-312 `class TrustAnchorChangeInfo(univ.Sequence)` -/
def TrustAnchorChangeInfo__0 : Py.Obj :=
  Py.univ.Sequence

/-- rfc5934.py:314-321 `TrustAnchorChangeInfo.componentType = ...` -/
def TrustAnchorChangeInfo : Py.Obj :=
  Rfc5934.TrustAnchorChangeInfo__0.setComponentType (Py.NamedTypes [
    Py.NamedType "pubKey" Rfc5934.SubjectPublicKeyInfo.call,
    Py.OptionalNamedType "keyId" Rfc5934.KeyIdentifier.call,
    Py.OptionalNamedType "taTitle" Rfc5934.TrustAnchorTitle.call,
    Py.OptionalNamedType "certPath" Rfc5934.CertPathControls.call,
    Py.OptionalNamedType "exts" (Rfc5934.Extensions.call.implicitTag (Py.Tag .context false 1))])

/-- rfc5934.py:324-325 `class TrustAnchorChangeInfoChoice(univ.Choice)` -/
def TrustAnchorChangeInfoChoice__0 : Py.Obj :=
  Py.univ.Choice

/-- rfc5934.py:327-332 `TrustAnchorChangeInfoChoice.componentType = ...` -/
def TrustAnchorChangeInfoChoice : Py.Obj :=
  Rfc5934.TrustAnchorChangeInfoChoice__0.setComponentType (Py.NamedTypes [
    Py.NamedType "tbsCertChange" (Rfc5934.TBSCertificateChangeInfo.call.implicitTag (Py.Tag .context true 0)),
    Py.NamedType "taChange" (Rfc5934.TrustAnchorChangeInfo.call.implicitTag (Py.Tag .context true 1))])

/-- rfc5934.py:335-336 `class TrustAnchorUpdate(univ.Choice)` -/
def TrustAnchorUpdate__0 : Py.Obj :=
  Py.univ.Choice

/-- rfc5934.py:338-345 `TrustAnchorUpdate.componentType = ...` -/
def TrustAnchorUpdate : Py.Obj :=
  Rfc5934.TrustAnchorUpdate__0.setComponentType (Py.NamedTypes [
    Py.NamedType "add" (Rfc5934.TrustAnchorChoice.call.implicitTag (Py.Tag .context false 1)),
    Py.NamedType "remove" (Rfc5934.SubjectPublicKeyInfo.call.implicitTag (Py.Tag .context false 2)),
    Py.NamedType "change" (Rfc5934.TrustAnchorChangeInfoChoice.call.explicitTag (Py.Tag .context true 3))])

/-- rfc5934.py:348-349 `class TAMPUpdate(univ.Sequence)` -/
def TAMPUpdate__0 : Py.Obj :=
  Py.univ.Sequence

/-- rfc5934.py:351-365 `TAMPUpdate.componentType = ...` -/
def TAMPUpdate : Py.Obj :=
  Rfc5934.TAMPUpdate__0.setComponentType (Py.NamedTypes [
    Py.DefaultedNamedType "version" ((Rfc5934.TAMPVersion.call.implicitTag (Py.Tag .context false 0)).callStr "v2"),
    Py.DefaultedNamedType "terse" ((Rfc5934.TerseOrVerbose.call.implicitTag (Py.Tag .context false 1)).callStr "verbose"),
    Py.NamedType "msgRef" Rfc5934.TAMPMsgRef.call,
    Py.NamedType "updates" ((Py.univ.SequenceOf.call.setComponentTypeOf Rfc5934.TrustAnchorUpdate.call).addSubtypeSpec (Py.ValueSizeConstraint (.fin 1) Rfc5934.MAX)),
    Py.OptionalNamedType "tampSeqNumbers" (Rfc5934.TAMPSequenceNumbers.call.implicitTag (Py.Tag .context false 2))])

/-- rfc5934.py:368 -/
def tamp_update__0 : Py.Proto :=
  { obj := Rfc5652.ContentInfo.call }

/-- rfc5934.py:369 `tamp_update['contentType'] = ...` -/
def tamp_update__1 : Py.Proto :=
  Rfc5934.tamp_update__0.set "contentType" (.obj Rfc5934.id_ct_TAMP_update)

/-- rfc5934.py:370 `tamp_update['content'] = ...` -/
def tamp_update : Py.Proto :=
  Rfc5934.tamp_update__1.set "content" (.obj Rfc5934.TAMPUpdate.call)

/-- rfc5934.py:375 -/
def id_ct_TAMP_updateConfirm : Py.Obj :=
  (Rfc5934._OID [.oid Rfc5934.id_tamp, .num 4])

/-- rfc5934.py:378-379 `class StatusCode(univ.Enumerated)` -/
def StatusCode__0 : Py.Obj :=
  Py.univ.Enumerated

/-- rfc5934.py:381-422 `StatusCode.namedValues = ...` -/
def StatusCode : Py.Obj :=
  Rfc5934.StatusCode__0.setNamedValues (Py.NamedValues [("success", 0), ("decodeFailure", 1), ("badContentInfo", 2), ("badSignedData", 3), ("badEncapContent", 4), ("badCertificate", 5), ("badSignerInfo", 6), ("badSignedAttrs", 7), ("badUnsignedAttrs", 8), ("missingContent", 9), ("noTrustAnchor", 10), ("notAuthorized", 11), ("badDigestAlgorithm", 12), ("badSignatureAlgorithm", 13), ("unsupportedKeySize", 14), ("unsupportedParameters", 15), ("signatureFailure", 16), ("insufficientMemory", 17), ("unsupportedTAMPMsgType", 18), ("apexTAMPAnchor", 19), ("improperTAAddition", 20), ("seqNumFailure", 21), ("contingencyPublicKeyDecrypt", 22), ("incorrectTarget", 23), ("communityUpdateFailed", 24), ("trustAnchorNotFound", 25), ("unsupportedTAAlgorithm", 26), ("unsupportedTAKeySize", 27), ("unsupportedContinPubKeyDecryptAlg", 28), ("missingSignature", 29), ("resourcesBusy", 30), ("versionNumberMismatch", 31), ("missingPolicySet", 32), ("revokedCertificate", 33), ("unsupportedTrustAnchorFormat", 34), ("improperTAChange", 35), ("malformed", 36), ("cmsError", 37), ("unsupportedTargetIdentifier", 38), ("other", 127)])

/-- rfc5934.py:425-426 `class StatusCodeList(univ.SequenceOf)` -/
def StatusCodeList__0 : Py.Obj :=
  Py.univ.SequenceOf

/-- rfc5934.py:428 `StatusCodeList.componentType = ...` -/
def StatusCodeList__1 : Py.Obj :=
  Rfc5934.StatusCodeList__0.setComponentTypeOf Rfc5934.StatusCode.call

/-- rfc5934.py:429 `StatusCodeList.subtypeSpec = ...` -/
def StatusCodeList : Py.Obj :=
  Rfc5934.StatusCodeList__1.setSubtypeSpec (Py.ValueSizeConstraint (.fin 1) Rfc5934.MAX)

/-- rfc5934.py:432-433 `class TerseUpdateConfirm(StatusCodeList)` -/
def TerseUpdateConfirm : Py.Obj :=
  Rfc5934.StatusCodeList

/-- rfc5934.py:436-437 `class VerboseUpdateConfirm(univ.Sequence)` -/
def VerboseUpdateConfirm__0 : Py.Obj :=
  Py.univ.Sequence

/-- rfc5934.py:439-444 `VerboseUpdateConfirm.componentType = ...` -/
def VerboseUpdateConfirm : Py.Obj :=
  Rfc5934.VerboseUpdateConfirm__0.setComponentType (Py.NamedTypes [
    Py.NamedType "status" Rfc5934.StatusCodeList.call,
    Py.NamedType "taInfo" Rfc5934.TrustAnchorChoiceList.call,
    Py.OptionalNamedType "tampSeqNumbers" Rfc5934.TAMPSequenceNumbers.call,
    Py.DefaultedNamedType "usesApex" (Py.univ.Boolean.call.callInt 1)])

/-- rfc5934.py:447-448 `class UpdateConfirm(univ.Choice)` -/
def UpdateConfirm__0 : Py.Obj :=
  Py.univ.Choice

/-- rfc5934.py:450-455 `UpdateConfirm.componentType = ...` -/
def UpdateConfirm : Py.Obj :=
  Rfc5934.UpdateConfirm__0.setComponentType (Py.NamedTypes [
    Py.NamedType "terseConfirm" (Rfc5934.TerseUpdateConfirm.call.implicitTag (Py.Tag .context false 0)),
    Py.NamedType "verboseConfirm" (Rfc5934.VerboseUpdateConfirm.call.implicitTag (Py.Tag .context true 1))])

/-- rfc5934.py:458-459 `class TAMPUpdateConfirm(univ.Sequence)` -/
def TAMPUpdateConfirm__0 : Py.Obj :=
  Py.univ.Sequence

/-- rfc5934.py:461-467 `TAMPUpdateConfirm.componentType = ...` -/
def TAMPUpdateConfirm : Py.Obj :=
  Rfc5934.TAMPUpdateConfirm__0.setComponentType (Py.NamedTypes [
    Py.DefaultedNamedType "version" ((Rfc5934.TAMPVersion.call.implicitTag (Py.Tag .context false 0)).callStr "v2"),
    Py.NamedType "update" Rfc5934.TAMPMsgRef.call,
    Py.NamedType "confirm" Rfc5934.UpdateConfirm.call])

/-- rfc5934.py:470 -/
def tamp_update_confirm__0 : Py.Proto :=
  { obj := Rfc5652.ContentInfo.call }

/-- rfc5934.py:471 `tamp_update_confirm['contentType'] = ...` -/
def tamp_update_confirm__1 : Py.Proto :=
  Rfc5934.tamp_update_confirm__0.set "contentType" (.obj Rfc5934.id_ct_TAMP_updateConfirm)

/-- rfc5934.py:472 `tamp_update_confirm['content'] = ...` -/
def tamp_update_confirm : Py.Proto :=
  Rfc5934.tamp_update_confirm__1.set "content" (.obj Rfc5934.TAMPUpdateConfirm.call)

/-- rfc5934.py:477 -/
def id_ct_TAMP_apexUpdate : Py.Obj :=
  (Rfc5934._OID [.oid Rfc5934.id_tamp, .num 5])

/-- rfc5934.py:480-481 `class TAMPApexUpdate(univ.Sequence)` -/
def TAMPApexUpdate__0 : Py.Obj :=
  Py.univ.Sequence

/-- rfc5934.py:483-495 `TAMPApexUpdate.componentType = ...` -/
def TAMPApexUpdate : Py.Obj :=
  Rfc5934.TAMPApexUpdate__0.setComponentType (Py.NamedTypes [
    Py.DefaultedNamedType "version" ((Rfc5934.TAMPVersion.call.implicitTag (Py.Tag .context false 0)).callStr "v2"),
    Py.DefaultedNamedType "terse" ((Rfc5934.TerseOrVerbose.call.implicitTag (Py.Tag .context false 1)).callStr "verbose"),
    Py.NamedType "msgRef" Rfc5934.TAMPMsgRef.call,
    Py.NamedType "clearTrustAnchors" Py.univ.Boolean.call,
    Py.NamedType "clearCommunities" Py.univ.Boolean.call,
    Py.OptionalNamedType "seqNumber" Rfc5934.SeqNumber.call,
    Py.NamedType "apexTA" Rfc5934.TrustAnchorChoice.call])

/-- rfc5934.py:498 -/
def tamp_apex_update__0 : Py.Proto :=
  { obj := Rfc5652.ContentInfo.call }

/-- rfc5934.py:499 `tamp_apex_update['contentType'] = ...` -/
def tamp_apex_update__1 : Py.Proto :=
  Rfc5934.tamp_apex_update__0.set "contentType" (.obj Rfc5934.id_ct_TAMP_apexUpdate)

/-- rfc5934.py:500 `tamp_apex_update['content'] = ...` -/
def tamp_apex_update : Py.Proto :=
  Rfc5934.tamp_apex_update__1.set "content" (.obj Rfc5934.TAMPApexUpdate.call)

/-- rfc5934.py:505 -/
def id_ct_TAMP_apexUpdateConfirm : Py.Obj :=
  (Rfc5934._OID [.oid Rfc5934.id_tamp, .num 6])

/-- rfc5934.py:508-509 `class TerseApexUpdateConfirm(StatusCode)` -/
def TerseApexUpdateConfirm : Py.Obj :=
  Rfc5934.StatusCode

/-- rfc5934.py:512-513 `class VerboseApexUpdateConfirm(univ.Sequence)` -/
def VerboseApexUpdateConfirm__0 : Py.Obj :=
  Py.univ.Sequence

/-- rfc5934.py:515-524 `VerboseApexUpdateConfirm.componentType = ...` -/
def VerboseApexUpdateConfirm : Py.Obj :=
  Rfc5934.VerboseApexUpdateConfirm__0.setComponentType (Py.NamedTypes [
    Py.NamedType "status" Rfc5934.StatusCode.call,
    Py.NamedType "taInfo" Rfc5934.TrustAnchorChoiceList.call,
    Py.OptionalNamedType "communities" (Rfc5934.CommunityIdentifierList.call.implicitTag (Py.Tag .context false 0)),
    Py.OptionalNamedType "tampSeqNumbers" (Rfc5934.TAMPSequenceNumbers.call.implicitTag (Py.Tag .context false 1))])

/-- rfc5934.py:527-528 `class ApexUpdateConfirm(univ.Choice)` -/
def ApexUpdateConfirm__0 : Py.Obj :=
  Py.univ.Choice

/-- rfc5934.py:530-537 `ApexUpdateConfirm.componentType = ...` -/
def ApexUpdateConfirm : Py.Obj :=
  Rfc5934.ApexUpdateConfirm__0.setComponentType (Py.NamedTypes [
    Py.NamedType "terseApexConfirm" (Rfc5934.TerseApexUpdateConfirm.call.implicitTag (Py.Tag .context false 0)),
    Py.NamedType "verboseApexConfirm" (Rfc5934.VerboseApexUpdateConfirm.call.implicitTag (Py.Tag .context true 1))])

/-- rfc5934.py:540-541 `class TAMPApexUpdateConfirm(univ.Sequence)` -/
def TAMPApexUpdateConfirm__0 : Py.Obj :=
  Py.univ.Sequence

/-- rfc5934.py:543-549 `TAMPApexUpdateConfirm.componentType = ...` -/
def TAMPApexUpdateConfirm : Py.Obj :=
  Rfc5934.TAMPApexUpdateConfirm__0.setComponentType (Py.NamedTypes [
    Py.DefaultedNamedType "version" ((Rfc5934.TAMPVersion.call.implicitTag (Py.Tag .context false 0)).callStr "v2"),
    Py.NamedType "apexReplace" Rfc5934.TAMPMsgRef.call,
    Py.NamedType "apexConfirm" Rfc5934.ApexUpdateConfirm.call])

/-- rfc5934.py:552 -/
def tamp_apex_update_confirm__0 : Py.Proto :=
  { obj := Rfc5652.ContentInfo.call }

/-- rfc5934.py:553 `tamp_apex_update_confirm['contentType'] = ...` -/
def tamp_apex_update_confirm__1 : Py.Proto :=
  Rfc5934.tamp_apex_update_confirm__0.set "contentType" (.obj Rfc5934.id_ct_TAMP_apexUpdateConfirm)

/-- rfc5934.py:554 `tamp_apex_update_confirm['content'] = ...` -/
def tamp_apex_update_confirm : Py.Proto :=
  Rfc5934.tamp_apex_update_confirm__1.set "content" (.obj Rfc5934.TAMPApexUpdateConfirm.call)

/-- rfc5934.py:559 -/
def id_ct_TAMP_communityUpdate : Py.Obj :=
  (Rfc5934._OID [.oid Rfc5934.id_tamp, .num 7])

/-- rfc5934.py:562-563 `class CommunityUpdates(univ.Sequence)` -/
def CommunityUpdates__0 : Py.Obj :=
  Py.univ.Sequence

/-- rfc5934.py:565-572 `CommunityUpdates.componentType = ...` -/
def CommunityUpdates : Py.Obj :=
  Rfc5934.CommunityUpdates__0.setComponentType (Py.NamedTypes [
    Py.OptionalNamedType "remove" (Rfc5934.CommunityIdentifierList.call.implicitTag (Py.Tag .context false 1)),
    Py.OptionalNamedType "add" (Rfc5934.CommunityIdentifierList.call.implicitTag (Py.Tag .context false 2))])

/-- rfc5934.py:575-576 `class TAMPCommunityUpdate(univ.Sequence)` -/
def TAMPCommunityUpdate__0 : Py.Obj :=
  Py.univ.Sequence

/-- rfc5934.py:578-587 `TAMPCommunityUpdate.componentType = ...` -/
def TAMPCommunityUpdate : Py.Obj :=
  Rfc5934.TAMPCommunityUpdate__0.setComponentType (Py.NamedTypes [
    Py.DefaultedNamedType "version" ((Rfc5934.TAMPVersion.call.implicitTag (Py.Tag .context false 0)).callStr "v2"),
    Py.DefaultedNamedType "terse" ((Rfc5934.TerseOrVerbose.call.implicitTag (Py.Tag .context false 1)).callStr "verbose"),
    Py.NamedType "msgRef" Rfc5934.TAMPMsgRef.call,
    Py.NamedType "updates" Rfc5934.CommunityUpdates.call])

/-- rfc5934.py:590 -/
def tamp_community_update__0 : Py.Proto :=
  { obj := Rfc5652.ContentInfo.call }

/-- rfc5934.py:591 `tamp_community_update['contentType'] = ...` -/
def tamp_community_update__1 : Py.Proto :=
  Rfc5934.tamp_community_update__0.set "contentType" (.obj Rfc5934.id_ct_TAMP_communityUpdate)

/-- rfc5934.py:592 `tamp_community_update['content'] = ...` -/
def tamp_community_update : Py.Proto :=
  Rfc5934.tamp_community_update__1.set "content" (.obj Rfc5934.TAMPCommunityUpdate.call)

/-- rfc5934.py:597 -/
def id_ct_TAMP_communityUpdateConfirm : Py.Obj :=
  (Rfc5934._OID [.oid Rfc5934.id_tamp, .num 8])

/-- rfc5934.py:600-601 `class TerseCommunityConfirm(StatusCode)` -/
def TerseCommunityConfirm : Py.Obj :=
  Rfc5934.StatusCode

/-- rfc5934.py:604-605 `class VerboseCommunityConfirm(univ.Sequence)` -/
def VerboseCommunityConfirm__0 : Py.Obj :=
  Py.univ.Sequence

/-- rfc5934.py:607-610 `VerboseCommunityConfirm.componentType = ...` -/
def VerboseCommunityConfirm : Py.Obj :=
  Rfc5934.VerboseCommunityConfirm__0.setComponentType (Py.NamedTypes [
    Py.NamedType "status" Rfc5934.StatusCode.call,
    Py.OptionalNamedType "communities" Rfc5934.CommunityIdentifierList.call])

/-- rfc5934.py:613-614 `class CommunityConfirm(univ.Choice)` -/
def CommunityConfirm__0 : Py.Obj :=
  Py.univ.Choice

/-- rfc5934.py:616-623 `CommunityConfirm.componentType = ...` -/
def CommunityConfirm : Py.Obj :=
  Rfc5934.CommunityConfirm__0.setComponentType (Py.NamedTypes [
    Py.NamedType "terseCommConfirm" (Rfc5934.TerseCommunityConfirm.call.implicitTag (Py.Tag .context false 0)),
    Py.NamedType "verboseCommConfirm" (Rfc5934.VerboseCommunityConfirm.call.implicitTag (Py.Tag .context true 1))])

/-- rfc5934.py:626-627 `class TAMPCommunityUpdateConfirm(univ.Sequence)` -/
def TAMPCommunityUpdateConfirm__0 : Py.Obj :=
  Py.univ.Sequence

/-- rfc5934.py:629-635 `TAMPCommunityUpdateConfirm.componentType = ...` -/
def TAMPCommunityUpdateConfirm : Py.Obj :=
  Rfc5934.TAMPCommunityUpdateConfirm__0.setComponentType (Py.NamedTypes [
    Py.DefaultedNamedType "version" ((Rfc5934.TAMPVersion.call.implicitTag (Py.Tag .context false 0)).callStr "v2"),
    Py.NamedType "update" Rfc5934.TAMPMsgRef.call,
    Py.NamedType "commConfirm" Rfc5934.CommunityConfirm.call])

/-- rfc5934.py:638 -/
def tamp_community_update_confirm__0 : Py.Proto :=
  { obj := Rfc5652.ContentInfo.call }

/-- rfc5934.py:639 `tamp_community_update_confirm['contentType'] = ...` -/
def tamp_community_update_confirm__1 : Py.Proto :=
  Rfc5934.tamp_community_update_confirm__0.set "contentType" (.obj Rfc5934.id_ct_TAMP_communityUpdateConfirm)

/-- rfc5934.py:640 `tamp_community_update_confirm['content'] = ...` -/
def tamp_community_update_confirm : Py.Proto :=
  Rfc5934.tamp_community_update_confirm__1.set "content" (.obj Rfc5934.TAMPCommunityUpdateConfirm.call)

/-- rfc5934.py:645 -/
def id_ct_TAMP_seqNumAdjust : Py.Obj :=
  (Rfc5934._OID [.oid Rfc5934.id_tamp, .num 10])

/-- rfc5934.py:649-650 `class SequenceNumberAdjust(univ.Sequence)` -/
def SequenceNumberAdjust__0 : Py.Obj :=
  Py.univ.Sequence

/-- rfc5934.py:652-657 `SequenceNumberAdjust.componentType = ...` -/
def SequenceNumberAdjust : Py.Obj :=
  Rfc5934.SequenceNumberAdjust__0.setComponentType (Py.NamedTypes [
    Py.DefaultedNamedType "version" ((Rfc5934.TAMPVersion.call.implicitTag (Py.Tag .context false 0)).callStr "v2"),
    Py.NamedType "msgRef" Rfc5934.TAMPMsgRef.call])

/-- rfc5934.py:660 -/
def tamp_sequence_number_adjust__0 : Py.Proto :=
  { obj := Rfc5652.ContentInfo.call }

/-- rfc5934.py:661 `tamp_sequence_number_adjust['contentType'] = ...` -/
def tamp_sequence_number_adjust__1 : Py.Proto :=
  Rfc5934.tamp_sequence_number_adjust__0.set "contentType" (.obj Rfc5934.id_ct_TAMP_seqNumAdjust)

/-- rfc5934.py:662 `tamp_sequence_number_adjust['content'] = ...` -/
def tamp_sequence_number_adjust : Py.Proto :=
  Rfc5934.tamp_sequence_number_adjust__1.set "content" (.obj Rfc5934.SequenceNumberAdjust.call)

/-- rfc5934.py:667 -/
def id_ct_TAMP_seqNumAdjustConfirm : Py.Obj :=
  (Rfc5934._OID [.oid Rfc5934.id_tamp, .num 11])

/-- rfc5934.py:670-671 `class SequenceNumberAdjustConfirm(univ.Sequence)` -/
def SequenceNumberAdjustConfirm__0 : Py.Obj :=
  Py.univ.Sequence

/-- rfc5934.py:673-679 `SequenceNumberAdjustConfirm.componentType = ...` -/
def SequenceNumberAdjustConfirm : Py.Obj :=
  Rfc5934.SequenceNumberAdjustConfirm__0.setComponentType (Py.NamedTypes [
    Py.DefaultedNamedType "version" ((Rfc5934.TAMPVersion.call.implicitTag (Py.Tag .context false 0)).callStr "v2"),
    Py.NamedType "adjust" Rfc5934.TAMPMsgRef.call,
    Py.NamedType "status" Rfc5934.StatusCode.call])

/-- rfc5934.py:682 -/
def tamp_sequence_number_adjust_confirm__0 : Py.Proto :=
  { obj := Rfc5652.ContentInfo.call }

/-- rfc5934.py:683 `tamp_sequence_number_adjust_confirm['contentType'] = ...` -/
def tamp_sequence_number_adjust_confirm__1 : Py.Proto :=
  Rfc5934.tamp_sequence_number_adjust_confirm__0.set "contentType" (.obj Rfc5934.id_ct_TAMP_seqNumAdjustConfirm)

/-- rfc5934.py:684 `tamp_sequence_number_adjust_confirm['content'] = ...` -/
def tamp_sequence_number_adjust_confirm : Py.Proto :=
  Rfc5934.tamp_sequence_number_adjust_confirm__1.set "content" (.obj Rfc5934.SequenceNumberAdjustConfirm.call)

/-- rfc5934.py:689 -/
def id_ct_TAMP_error : Py.Obj :=
  (Rfc5934._OID [.oid Rfc5934.id_tamp, .num 9])

/-- rfc5934.py:692-693 `class TAMPError(univ.Sequence)` -/
def TAMPError__0 : Py.Obj :=
  Py.univ.Sequence

/-- rfc5934.py:695-702 `TAMPError.componentType = ...` -/
def TAMPError : Py.Obj :=
  Rfc5934.TAMPError__0.setComponentType (Py.NamedTypes [
    Py.DefaultedNamedType "version" ((Rfc5934.TAMPVersion.call.implicitTag (Py.Tag .context false 0)).callStr "v2"),
    Py.NamedType "msgType" Py.univ.ObjectIdentifier.call,
    Py.NamedType "status" Rfc5934.StatusCode.call,
    Py.OptionalNamedType "msgRef" Rfc5934.TAMPMsgRef.call])

/-- rfc5934.py:705 -/
def tamp_error__0 : Py.Proto :=
  { obj := Rfc5652.ContentInfo.call }

/-- rfc5934.py:706 `tamp_error['contentType'] = ...` -/
def tamp_error__1 : Py.Proto :=
  Rfc5934.tamp_error__0.set "contentType" (.obj Rfc5934.id_ct_TAMP_error)

/-- rfc5934.py:707 `tamp_error['content'] = ...` -/
def tamp_error : Py.Proto :=
  Rfc5934.tamp_error__1.set "content" (.obj Rfc5934.TAMPError.call)

/-- rfc5934.py:712 -/
def id_attributes : Py.Obj :=
  (Py.univ.ObjectIdentifier.call.callArcs [2, 16, 840, 1, 101, 2, 1, 5])

/-- rfc5934.py:717 -/
def id_aa_TAMP_contingencyPublicKeyDecryptKey : Py.Obj :=
  (Rfc5934._OID [.oid Rfc5934.id_attributes, .num 63])

/-- rfc5934.py:720-721 `class PlaintextSymmetricKey(univ.OctetString)` -/
def PlaintextSymmetricKey : Py.Obj :=
  Py.univ.OctetString

/-- rfc5934.py:724 -/
def contingency_public_key_decrypt_key__0 : Py.Proto :=
  { obj := Rfc5934.Attribute.call }

/-- rfc5934.py:725 `contingency_public_key_decrypt_key['type'] = ...` -/
def contingency_public_key_decrypt_key__1 : Py.Proto :=
  Rfc5934.contingency_public_key_decrypt_key__0.set "type" (.obj Rfc5934.id_aa_TAMP_contingencyPublicKeyDecryptKey)

/-- rfc5934.py:726 `contingency_public_key_decrypt_key['values'][0] = ...` -/
def contingency_public_key_decrypt_key : Py.Proto :=
  Rfc5934.contingency_public_key_decrypt_key__1.set "values" (.elem0 Rfc5934.PlaintextSymmetricKey.call)

/-- rfc5934.py:731 -/
def id_pe_wrappedApexContinKey : Py.Obj :=
  (Py.univ.ObjectIdentifier.call.callArcs [1, 3, 6, 1, 5, 5, 7, 1, 20])

/-- rfc5934.py:734-735 `class ApexContingencyKey(univ.Sequence)` -/
def ApexContingencyKey__0 : Py.Obj :=
  Py.univ.Sequence

/-- rfc5934.py:737-740 `ApexContingencyKey.componentType = ...` -/
def ApexContingencyKey : Py.Obj :=
  Rfc5934.ApexContingencyKey__0.setComponentType (Py.NamedTypes [
    Py.NamedType "wrapAlgorithm" Rfc5934.AlgorithmIdentifier.call,
    Py.NamedType "wrappedContinPubKey" Py.univ.OctetString.call])

/-- rfc5934.py:743 -/
def wrappedApexContinKey__0 : Py.Proto :=
  { obj := Rfc5934.Extension.call }

/-- rfc5934.py:744 `wrappedApexContinKey['extnID'] = ...` -/
def wrappedApexContinKey__1 : Py.Proto :=
  Rfc5934.wrappedApexContinKey__0.set "extnID" (.obj Rfc5934.id_pe_wrappedApexContinKey)

/-- rfc5934.py:745 `wrappedApexContinKey['critical'] = ...` -/
def wrappedApexContinKey__2 : Py.Proto :=
  Rfc5934.wrappedApexContinKey__1.set "critical" (.int 0)

/-- rfc5934.py:746 `wrappedApexContinKey['extnValue'] = ...` -/
def wrappedApexContinKey : Py.Proto :=
  Rfc5934.wrappedApexContinKey__2.set "extnValue" (.obj Py.univ.OctetString.call)

/-- rfc5934.py:752-764 -/
def _cmsContentTypesMapUpdate : Py.Entries :=
  [(Rfc5934.id_ct_TAMP_statusQuery.value, Rfc5934.TAMPStatusQuery.call.ty),
    (Rfc5934.id_ct_TAMP_statusResponse.value, Rfc5934.TAMPStatusResponse.call.ty),
    (Rfc5934.id_ct_TAMP_update.value, Rfc5934.TAMPUpdate.call.ty),
    (Rfc5934.id_ct_TAMP_updateConfirm.value, Rfc5934.TAMPUpdateConfirm.call.ty),
    (Rfc5934.id_ct_TAMP_apexUpdate.value, Rfc5934.TAMPApexUpdate.call.ty),
    (Rfc5934.id_ct_TAMP_apexUpdateConfirm.value, Rfc5934.TAMPApexUpdateConfirm.call.ty),
    (Rfc5934.id_ct_TAMP_communityUpdate.value, Rfc5934.TAMPCommunityUpdate.call.ty),
    (Rfc5934.id_ct_TAMP_communityUpdateConfirm.value, Rfc5934.TAMPCommunityUpdateConfirm.call.ty),
    (Rfc5934.id_ct_TAMP_seqNumAdjust.value, Rfc5934.SequenceNumberAdjust.call.ty),
    (Rfc5934.id_ct_TAMP_seqNumAdjustConfirm.value, Rfc5934.SequenceNumberAdjustConfirm.call.ty),
    (Rfc5934.id_ct_TAMP_error.value, Rfc5934.TAMPError.call.ty)]

/-- rfc5934.py:772-774 -/
def _cmsAttributesMapUpdate : Py.Entries :=
  [(Rfc5934.id_aa_TAMP_contingencyPublicKeyDecryptKey.value, Rfc5934.PlaintextSymmetricKey.call.ty)]

/-- rfc5934.py:782-784 -/
def _certificateExtensionsMap : Py.Entries :=
  [(Rfc5934.id_pe_wrappedApexContinKey.value, Rfc5934.ApexContingencyKey.call.ty)]

/-- Modules of this package imported by rfc5934.py, in textual order. -/
def imports : List Py.Ident :=
  [(Py.mod 24 "rfc2985"), (Py.mod 15 "rfc5280"), (Py.mod 16 "rfc5652"), (Py.mod 78 "rfc5914")]

/-- Dictionary operations executed when rfc5934.py is imported, in program order. -/
def effects : List Py.Effect :=
  [.create (Py.map 96 "rfc5934._cmsContentTypesMapUpdate") Rfc5934._cmsContentTypesMapUpdate /- rfc5934.py:752-764 -/,
   .update (Py.map 13 "rfc5652.cmsContentTypesMap") Rfc5934._cmsContentTypesMapUpdate /- rfc5934.py:766 -/,
   .create (Py.map 97 "rfc5934._cmsAttributesMapUpdate") Rfc5934._cmsAttributesMapUpdate /- rfc5934.py:772-774 -/,
   .update (Py.map 8 "rfc5652.cmsAttributesMap") Rfc5934._cmsAttributesMapUpdate /- rfc5934.py:776 -/,
   .create (Py.map 98 "rfc5934._certificateExtensionsMap") Rfc5934._certificateExtensionsMap /- rfc5934.py:782-784 -/,
   .update (Py.map 48 "rfc5280.certificateExtensionsMap") Rfc5934._certificateExtensionsMap /- rfc5934.py:786 -/]

/-- ASN.1 types rfc5934.py binds at module level (final version of each name), plus nested classes. -/
def classes : List (String × Py.Obj) :=
  [("rfc5934.SingleAttribute", Rfc5934.SingleAttribute),
   ("rfc5934.CertPathControls", Rfc5934.CertPathControls),
   ("rfc5934.TrustAnchorChoice", Rfc5934.TrustAnchorChoice),
   ("rfc5934.TrustAnchorTitle", Rfc5934.TrustAnchorTitle),
   ("rfc5934.AlgorithmIdentifier", Rfc5934.AlgorithmIdentifier),
   ("rfc5934.AnotherName", Rfc5934.AnotherName),
   ("rfc5934.Attribute", Rfc5934.Attribute),
   ("rfc5934.Certificate", Rfc5934.Certificate),
   ("rfc5934.CertificateSerialNumber", Rfc5934.CertificateSerialNumber),
   ("rfc5934.Extension", Rfc5934.Extension),
   ("rfc5934.Extensions", Rfc5934.Extensions),
   ("rfc5934.KeyIdentifier", Rfc5934.KeyIdentifier),
   ("rfc5934.Name", Rfc5934.Name),
   ("rfc5934.SubjectPublicKeyInfo", Rfc5934.SubjectPublicKeyInfo),
   ("rfc5934.TBSCertificate", Rfc5934.TBSCertificate),
   ("rfc5934.Validity", Rfc5934.Validity),
   ("rfc5934.TAMPVersion", Rfc5934.TAMPVersion),
   ("rfc5934.TerseOrVerbose", Rfc5934.TerseOrVerbose),
   ("rfc5934.HardwareSerialEntry", Rfc5934.HardwareSerialEntry),
   ("rfc5934.HardwareModules", Rfc5934.HardwareModules),
   ("rfc5934.HardwareModuleIdentifierList", Rfc5934.HardwareModuleIdentifierList),
   ("rfc5934.Community", Rfc5934.Community),
   ("rfc5934.CommunityIdentifierList", Rfc5934.CommunityIdentifierList),
   ("rfc5934.TargetIdentifier", Rfc5934.TargetIdentifier),
   ("rfc5934.SeqNumber", Rfc5934.SeqNumber),
   ("rfc5934.TAMPMsgRef", Rfc5934.TAMPMsgRef),
   ("rfc5934.TAMPStatusQuery", Rfc5934.TAMPStatusQuery),
   ("rfc5934.KeyIdentifiers", Rfc5934.KeyIdentifiers),
   ("rfc5934.TrustAnchorChoiceList", Rfc5934.TrustAnchorChoiceList),
   ("rfc5934.TAMPSequenceNumber", Rfc5934.TAMPSequenceNumber),
   ("rfc5934.TAMPSequenceNumbers", Rfc5934.TAMPSequenceNumbers),
   ("rfc5934.TerseStatusResponse", Rfc5934.TerseStatusResponse),
   ("rfc5934.VerboseStatusResponse", Rfc5934.VerboseStatusResponse),
   ("rfc5934.StatusResponse", Rfc5934.StatusResponse),
   ("rfc5934.TAMPStatusResponse", Rfc5934.TAMPStatusResponse),
   ("rfc5934.TBSCertificateChangeInfo", Rfc5934.TBSCertificateChangeInfo),
   ("rfc5934.TrustAnchorChangeInfo", Rfc5934.TrustAnchorChangeInfo),
   ("rfc5934.TrustAnchorChangeInfoChoice", Rfc5934.TrustAnchorChangeInfoChoice),
   ("rfc5934.TrustAnchorUpdate", Rfc5934.TrustAnchorUpdate),
   ("rfc5934.TAMPUpdate", Rfc5934.TAMPUpdate),
   ("rfc5934.StatusCode", Rfc5934.StatusCode),
   ("rfc5934.StatusCodeList", Rfc5934.StatusCodeList),
   ("rfc5934.TerseUpdateConfirm", Rfc5934.TerseUpdateConfirm),
   ("rfc5934.VerboseUpdateConfirm", Rfc5934.VerboseUpdateConfirm),
   ("rfc5934.UpdateConfirm", Rfc5934.UpdateConfirm),
   ("rfc5934.TAMPUpdateConfirm", Rfc5934.TAMPUpdateConfirm),
   ("rfc5934.TAMPApexUpdate", Rfc5934.TAMPApexUpdate),
   ("rfc5934.TerseApexUpdateConfirm", Rfc5934.TerseApexUpdateConfirm),
   ("rfc5934.VerboseApexUpdateConfirm", Rfc5934.VerboseApexUpdateConfirm),
   ("rfc5934.ApexUpdateConfirm", Rfc5934.ApexUpdateConfirm),
   ("rfc5934.TAMPApexUpdateConfirm", Rfc5934.TAMPApexUpdateConfirm),
   ("rfc5934.CommunityUpdates", Rfc5934.CommunityUpdates),
   ("rfc5934.TAMPCommunityUpdate", Rfc5934.TAMPCommunityUpdate),
   ("rfc5934.TerseCommunityConfirm", Rfc5934.TerseCommunityConfirm),
   ("rfc5934.VerboseCommunityConfirm", Rfc5934.VerboseCommunityConfirm),
   ("rfc5934.CommunityConfirm", Rfc5934.CommunityConfirm),
   ("rfc5934.TAMPCommunityUpdateConfirm", Rfc5934.TAMPCommunityUpdateConfirm),
   ("rfc5934.SequenceNumberAdjust", Rfc5934.SequenceNumberAdjust),
   ("rfc5934.SequenceNumberAdjustConfirm", Rfc5934.SequenceNumberAdjustConfirm),
   ("rfc5934.TAMPError", Rfc5934.TAMPError),
   ("rfc5934.PlaintextSymmetricKey", Rfc5934.PlaintextSymmetricKey),
   ("rfc5934.ApexContingencyKey", Rfc5934.ApexContingencyKey)]

/-- pyasn1 instances rfc5934.py binds at module level. -/
def objects : List (String × Py.Obj) :=
  [("rfc5934.id_tamp", Rfc5934.id_tamp),
   ("rfc5934.id_ct_TAMP_statusQuery", Rfc5934.id_ct_TAMP_statusQuery),
   ("rfc5934.id_ct_TAMP_statusResponse", Rfc5934.id_ct_TAMP_statusResponse),
   ("rfc5934.id_ct_TAMP_update", Rfc5934.id_ct_TAMP_update),
   ("rfc5934.id_ct_TAMP_updateConfirm", Rfc5934.id_ct_TAMP_updateConfirm),
   ("rfc5934.id_ct_TAMP_apexUpdate", Rfc5934.id_ct_TAMP_apexUpdate),
   ("rfc5934.id_ct_TAMP_apexUpdateConfirm", Rfc5934.id_ct_TAMP_apexUpdateConfirm),
   ("rfc5934.id_ct_TAMP_communityUpdate", Rfc5934.id_ct_TAMP_communityUpdate),
   ("rfc5934.id_ct_TAMP_communityUpdateConfirm", Rfc5934.id_ct_TAMP_communityUpdateConfirm),
   ("rfc5934.id_ct_TAMP_seqNumAdjust", Rfc5934.id_ct_TAMP_seqNumAdjust),
   ("rfc5934.id_ct_TAMP_seqNumAdjustConfirm", Rfc5934.id_ct_TAMP_seqNumAdjustConfirm),
   ("rfc5934.id_ct_TAMP_error", Rfc5934.id_ct_TAMP_error),
   ("rfc5934.id_attributes", Rfc5934.id_attributes),
   ("rfc5934.id_aa_TAMP_contingencyPublicKeyDecryptKey", Rfc5934.id_aa_TAMP_contingencyPublicKeyDecryptKey),
   ("rfc5934.id_pe_wrappedApexContinKey", Rfc5934.id_pe_wrappedApexContinKey)]

/-- pyasn1 instances rfc5934.py fills in by item assignment. -/
def protos : List (String × Py.Proto) :=
  [("rfc5934.tamp_status_query", Rfc5934.tamp_status_query),
   ("rfc5934.tamp_status_response", Rfc5934.tamp_status_response),
   ("rfc5934.tamp_update", Rfc5934.tamp_update),
   ("rfc5934.tamp_update_confirm", Rfc5934.tamp_update_confirm),
   ("rfc5934.tamp_apex_update", Rfc5934.tamp_apex_update),
   ("rfc5934.tamp_apex_update_confirm", Rfc5934.tamp_apex_update_confirm),
   ("rfc5934.tamp_community_update", Rfc5934.tamp_community_update),
   ("rfc5934.tamp_community_update_confirm", Rfc5934.tamp_community_update_confirm),
   ("rfc5934.tamp_sequence_number_adjust", Rfc5934.tamp_sequence_number_adjust),
   ("rfc5934.tamp_sequence_number_adjust_confirm", Rfc5934.tamp_sequence_number_adjust_confirm),
   ("rfc5934.tamp_error", Rfc5934.tamp_error),
   ("rfc5934.contingency_public_key_decrypt_key", Rfc5934.contingency_public_key_decrypt_key),
   ("rfc5934.wrappedApexContinKey", Rfc5934.wrappedApexContinKey)]

/-- Every place of rfc5934.py that instantiates a class of the package: where, the class as it is
at that point, and the class as it is when the import has finished. -/
def snapshots : List Py.Snapshot :=
  [⟨"rfc5934.py:122", Rfc5934.HardwareSerialEntry, Rfc5934.HardwareSerialEntry⟩,
   ⟨"rfc5934.py:130", Rfc5934.HardwareModules, Rfc5934.HardwareModules⟩,
   ⟨"rfc5934.py:141", Rfc5934.Community, Rfc5934.Community⟩,
   ⟨"rfc5934.py:149", Rfc5934.HardwareModuleIdentifierList, Rfc5934.HardwareModuleIdentifierList⟩,
   ⟨"rfc5934.py:151", Rfc5934.CommunityIdentifierList, Rfc5934.CommunityIdentifierList⟩,
   ⟨"rfc5934.py:157", Rfc5934.AnotherName, Rfc5934.AnotherName⟩,
   ⟨"rfc5934.py:172", Rfc5934.TargetIdentifier, Rfc5934.TargetIdentifier⟩,
   ⟨"rfc5934.py:173", Rfc5934.SeqNumber, Rfc5934.SeqNumber⟩,
   ⟨"rfc5934.py:181", Rfc5934.TAMPVersion, Rfc5934.TAMPVersion⟩,
   ⟨"rfc5934.py:184", Rfc5934.TerseOrVerbose, Rfc5934.TerseOrVerbose⟩,
   ⟨"rfc5934.py:187", Rfc5934.TAMPMsgRef, Rfc5934.TAMPMsgRef⟩,
   ⟨"rfc5934.py:191", Rfc5652.ContentInfo, Rfc5652.ContentInfo⟩,
   ⟨"rfc5934.py:193", Rfc5934.TAMPStatusQuery, Rfc5934.TAMPStatusQuery⟩,
   ⟨"rfc5934.py:204", Rfc5934.KeyIdentifier, Rfc5934.KeyIdentifier⟩,
   ⟨"rfc5934.py:211", Rfc5934.TrustAnchorChoice, Rfc5934.TrustAnchorChoice⟩,
   ⟨"rfc5934.py:219", Rfc5934.KeyIdentifier, Rfc5934.KeyIdentifier⟩,
   ⟨"rfc5934.py:220", Rfc5934.SeqNumber, Rfc5934.SeqNumber⟩,
   ⟨"rfc5934.py:227", Rfc5934.TAMPSequenceNumber, Rfc5934.TAMPSequenceNumber⟩,
   ⟨"rfc5934.py:235", Rfc5934.KeyIdentifiers, Rfc5934.KeyIdentifiers⟩,
   ⟨"rfc5934.py:236", Rfc5934.CommunityIdentifierList, Rfc5934.CommunityIdentifierList⟩,
   ⟨"rfc5934.py:244", Rfc5934.TrustAnchorChoiceList, Rfc5934.TrustAnchorChoiceList⟩,
   ⟨"rfc5934.py:246", Rfc5934.AlgorithmIdentifier, Rfc5934.AlgorithmIdentifier⟩,
   ⟨"rfc5934.py:249", Rfc5934.CommunityIdentifierList, Rfc5934.CommunityIdentifierList⟩,
   ⟨"rfc5934.py:252", Rfc5934.TAMPSequenceNumbers, Rfc5934.TAMPSequenceNumbers⟩,
   ⟨"rfc5934.py:261", Rfc5934.TerseStatusResponse, Rfc5934.TerseStatusResponse⟩,
   ⟨"rfc5934.py:263", Rfc5934.VerboseStatusResponse, Rfc5934.VerboseStatusResponse⟩,
   ⟨"rfc5934.py:272", Rfc5934.TAMPVersion, Rfc5934.TAMPVersion⟩,
   ⟨"rfc5934.py:275", Rfc5934.TAMPMsgRef, Rfc5934.TAMPMsgRef⟩,
   ⟨"rfc5934.py:276", Rfc5934.StatusResponse, Rfc5934.StatusResponse⟩,
   ⟨"rfc5934.py:281", Rfc5652.ContentInfo, Rfc5652.ContentInfo⟩,
   ⟨"rfc5934.py:283", Rfc5934.TAMPStatusResponse, Rfc5934.TAMPStatusResponse⟩,
   ⟨"rfc5934.py:295", Rfc5934.CertificateSerialNumber, Rfc5934.CertificateSerialNumber⟩,
   ⟨"rfc5934.py:296", Rfc5934.AlgorithmIdentifier, Rfc5934.AlgorithmIdentifier⟩,
   ⟨"rfc5934.py:298", Rfc5934.Name, Rfc5934.Name⟩,
   ⟨"rfc5934.py:300", Rfc5934.Validity, Rfc5934.Validity⟩,
   ⟨"rfc5934.py:302", Rfc5934.Name, Rfc5934.Name⟩,
   ⟨"rfc5934.py:304", Rfc5934.SubjectPublicKeyInfo, Rfc5934.SubjectPublicKeyInfo⟩,
   ⟨"rfc5934.py:306", Rfc5934.Extensions, Rfc5934.Extensions⟩,
   ⟨"rfc5934.py:315", Rfc5934.SubjectPublicKeyInfo, Rfc5934.SubjectPublicKeyInfo⟩,
   ⟨"rfc5934.py:316", Rfc5934.KeyIdentifier, Rfc5934.KeyIdentifier⟩,
   ⟨"rfc5934.py:317", Rfc5934.TrustAnchorTitle, Rfc5934.TrustAnchorTitle⟩,
   ⟨"rfc5934.py:318", Rfc5934.CertPathControls, Rfc5934.CertPathControls⟩,
   ⟨"rfc5934.py:319", Rfc5934.Extensions, Rfc5934.Extensions⟩,
   ⟨"rfc5934.py:328", Rfc5934.TBSCertificateChangeInfo, Rfc5934.TBSCertificateChangeInfo⟩,
   ⟨"rfc5934.py:330", Rfc5934.TrustAnchorChangeInfo, Rfc5934.TrustAnchorChangeInfo⟩,
   ⟨"rfc5934.py:339", Rfc5934.TrustAnchorChoice, Rfc5934.TrustAnchorChoice⟩,
   ⟨"rfc5934.py:341", Rfc5934.SubjectPublicKeyInfo, Rfc5934.SubjectPublicKeyInfo⟩,
   ⟨"rfc5934.py:343", Rfc5934.TrustAnchorChangeInfoChoice, Rfc5934.TrustAnchorChangeInfoChoice⟩,
   ⟨"rfc5934.py:353", Rfc5934.TAMPVersion, Rfc5934.TAMPVersion⟩,
   ⟨"rfc5934.py:356", Rfc5934.TerseOrVerbose, Rfc5934.TerseOrVerbose⟩,
   ⟨"rfc5934.py:358", Rfc5934.TAMPMsgRef, Rfc5934.TAMPMsgRef⟩,
   ⟨"rfc5934.py:360", Rfc5934.TrustAnchorUpdate, Rfc5934.TrustAnchorUpdate⟩,
   ⟨"rfc5934.py:363", Rfc5934.TAMPSequenceNumbers, Rfc5934.TAMPSequenceNumbers⟩,
   ⟨"rfc5934.py:368", Rfc5652.ContentInfo, Rfc5652.ContentInfo⟩,
   ⟨"rfc5934.py:370", Rfc5934.TAMPUpdate, Rfc5934.TAMPUpdate⟩,
   ⟨"rfc5934.py:428", Rfc5934.StatusCode, Rfc5934.StatusCode⟩,
   ⟨"rfc5934.py:440", Rfc5934.StatusCodeList, Rfc5934.StatusCodeList⟩,
   ⟨"rfc5934.py:441", Rfc5934.TrustAnchorChoiceList, Rfc5934.TrustAnchorChoiceList⟩,
   ⟨"rfc5934.py:442", Rfc5934.TAMPSequenceNumbers, Rfc5934.TAMPSequenceNumbers⟩,
   ⟨"rfc5934.py:451", Rfc5934.TerseUpdateConfirm, Rfc5934.TerseUpdateConfirm⟩,
   ⟨"rfc5934.py:453", Rfc5934.VerboseUpdateConfirm, Rfc5934.VerboseUpdateConfirm⟩,
   ⟨"rfc5934.py:462", Rfc5934.TAMPVersion, Rfc5934.TAMPVersion⟩,
   ⟨"rfc5934.py:465", Rfc5934.TAMPMsgRef, Rfc5934.TAMPMsgRef⟩,
   ⟨"rfc5934.py:466", Rfc5934.UpdateConfirm, Rfc5934.UpdateConfirm⟩,
   ⟨"rfc5934.py:470", Rfc5652.ContentInfo, Rfc5652.ContentInfo⟩,
   ⟨"rfc5934.py:472", Rfc5934.TAMPUpdateConfirm, Rfc5934.TAMPUpdateConfirm⟩,
   ⟨"rfc5934.py:485", Rfc5934.TAMPVersion, Rfc5934.TAMPVersion⟩,
   ⟨"rfc5934.py:488", Rfc5934.TerseOrVerbose, Rfc5934.TerseOrVerbose⟩,
   ⟨"rfc5934.py:490", Rfc5934.TAMPMsgRef, Rfc5934.TAMPMsgRef⟩,
   ⟨"rfc5934.py:493", Rfc5934.SeqNumber, Rfc5934.SeqNumber⟩,
   ⟨"rfc5934.py:494", Rfc5934.TrustAnchorChoice, Rfc5934.TrustAnchorChoice⟩,
   ⟨"rfc5934.py:498", Rfc5652.ContentInfo, Rfc5652.ContentInfo⟩,
   ⟨"rfc5934.py:500", Rfc5934.TAMPApexUpdate, Rfc5934.TAMPApexUpdate⟩,
   ⟨"rfc5934.py:516", Rfc5934.StatusCode, Rfc5934.StatusCode⟩,
   ⟨"rfc5934.py:517", Rfc5934.TrustAnchorChoiceList, Rfc5934.TrustAnchorChoiceList⟩,
   ⟨"rfc5934.py:519", Rfc5934.CommunityIdentifierList, Rfc5934.CommunityIdentifierList⟩,
   ⟨"rfc5934.py:522", Rfc5934.TAMPSequenceNumbers, Rfc5934.TAMPSequenceNumbers⟩,
   ⟨"rfc5934.py:532", Rfc5934.TerseApexUpdateConfirm, Rfc5934.TerseApexUpdateConfirm⟩,
   ⟨"rfc5934.py:535", Rfc5934.VerboseApexUpdateConfirm, Rfc5934.VerboseApexUpdateConfirm⟩,
   ⟨"rfc5934.py:545", Rfc5934.TAMPVersion, Rfc5934.TAMPVersion⟩,
   ⟨"rfc5934.py:547", Rfc5934.TAMPMsgRef, Rfc5934.TAMPMsgRef⟩,
   ⟨"rfc5934.py:548", Rfc5934.ApexUpdateConfirm, Rfc5934.ApexUpdateConfirm⟩,
   ⟨"rfc5934.py:552", Rfc5652.ContentInfo, Rfc5652.ContentInfo⟩,
   ⟨"rfc5934.py:554", Rfc5934.TAMPApexUpdateConfirm, Rfc5934.TAMPApexUpdateConfirm⟩,
   ⟨"rfc5934.py:567", Rfc5934.CommunityIdentifierList, Rfc5934.CommunityIdentifierList⟩,
   ⟨"rfc5934.py:570", Rfc5934.CommunityIdentifierList, Rfc5934.CommunityIdentifierList⟩,
   ⟨"rfc5934.py:580", Rfc5934.TAMPVersion, Rfc5934.TAMPVersion⟩,
   ⟨"rfc5934.py:583", Rfc5934.TerseOrVerbose, Rfc5934.TerseOrVerbose⟩,
   ⟨"rfc5934.py:585", Rfc5934.TAMPMsgRef, Rfc5934.TAMPMsgRef⟩,
   ⟨"rfc5934.py:586", Rfc5934.CommunityUpdates, Rfc5934.CommunityUpdates⟩,
   ⟨"rfc5934.py:590", Rfc5652.ContentInfo, Rfc5652.ContentInfo⟩,
   ⟨"rfc5934.py:592", Rfc5934.TAMPCommunityUpdate, Rfc5934.TAMPCommunityUpdate⟩,
   ⟨"rfc5934.py:608", Rfc5934.StatusCode, Rfc5934.StatusCode⟩,
   ⟨"rfc5934.py:609", Rfc5934.CommunityIdentifierList, Rfc5934.CommunityIdentifierList⟩,
   ⟨"rfc5934.py:618", Rfc5934.TerseCommunityConfirm, Rfc5934.TerseCommunityConfirm⟩,
   ⟨"rfc5934.py:621", Rfc5934.VerboseCommunityConfirm, Rfc5934.VerboseCommunityConfirm⟩,
   ⟨"rfc5934.py:631", Rfc5934.TAMPVersion, Rfc5934.TAMPVersion⟩,
   ⟨"rfc5934.py:633", Rfc5934.TAMPMsgRef, Rfc5934.TAMPMsgRef⟩,
   ⟨"rfc5934.py:634", Rfc5934.CommunityConfirm, Rfc5934.CommunityConfirm⟩,
   ⟨"rfc5934.py:638", Rfc5652.ContentInfo, Rfc5652.ContentInfo⟩,
   ⟨"rfc5934.py:640", Rfc5934.TAMPCommunityUpdateConfirm, Rfc5934.TAMPCommunityUpdateConfirm⟩,
   ⟨"rfc5934.py:654", Rfc5934.TAMPVersion, Rfc5934.TAMPVersion⟩,
   ⟨"rfc5934.py:656", Rfc5934.TAMPMsgRef, Rfc5934.TAMPMsgRef⟩,
   ⟨"rfc5934.py:660", Rfc5652.ContentInfo, Rfc5652.ContentInfo⟩,
   ⟨"rfc5934.py:662", Rfc5934.SequenceNumberAdjust, Rfc5934.SequenceNumberAdjust⟩,
   ⟨"rfc5934.py:675", Rfc5934.TAMPVersion, Rfc5934.TAMPVersion⟩,
   ⟨"rfc5934.py:677", Rfc5934.TAMPMsgRef, Rfc5934.TAMPMsgRef⟩,
   ⟨"rfc5934.py:678", Rfc5934.StatusCode, Rfc5934.StatusCode⟩,
   ⟨"rfc5934.py:682", Rfc5652.ContentInfo, Rfc5652.ContentInfo⟩,
   ⟨"rfc5934.py:684", Rfc5934.SequenceNumberAdjustConfirm, Rfc5934.SequenceNumberAdjustConfirm⟩,
   ⟨"rfc5934.py:697", Rfc5934.TAMPVersion, Rfc5934.TAMPVersion⟩,
   ⟨"rfc5934.py:700", Rfc5934.StatusCode, Rfc5934.StatusCode⟩,
   ⟨"rfc5934.py:701", Rfc5934.TAMPMsgRef, Rfc5934.TAMPMsgRef⟩,
   ⟨"rfc5934.py:705", Rfc5652.ContentInfo, Rfc5652.ContentInfo⟩,
   ⟨"rfc5934.py:707", Rfc5934.TAMPError, Rfc5934.TAMPError⟩,
   ⟨"rfc5934.py:724", Rfc5934.Attribute, Rfc5934.Attribute⟩,
   ⟨"rfc5934.py:726", Rfc5934.PlaintextSymmetricKey, Rfc5934.PlaintextSymmetricKey⟩,
   ⟨"rfc5934.py:738", Rfc5934.AlgorithmIdentifier, Rfc5934.AlgorithmIdentifier⟩,
   ⟨"rfc5934.py:743", Rfc5934.Extension, Rfc5934.Extension⟩,
   ⟨"rfc5934.py:753", Rfc5934.TAMPStatusQuery, Rfc5934.TAMPStatusQuery⟩,
   ⟨"rfc5934.py:754", Rfc5934.TAMPStatusResponse, Rfc5934.TAMPStatusResponse⟩,
   ⟨"rfc5934.py:755", Rfc5934.TAMPUpdate, Rfc5934.TAMPUpdate⟩,
   ⟨"rfc5934.py:756", Rfc5934.TAMPUpdateConfirm, Rfc5934.TAMPUpdateConfirm⟩,
   ⟨"rfc5934.py:757", Rfc5934.TAMPApexUpdate, Rfc5934.TAMPApexUpdate⟩,
   ⟨"rfc5934.py:758", Rfc5934.TAMPApexUpdateConfirm, Rfc5934.TAMPApexUpdateConfirm⟩,
   ⟨"rfc5934.py:759", Rfc5934.TAMPCommunityUpdate, Rfc5934.TAMPCommunityUpdate⟩,
   ⟨"rfc5934.py:760", Rfc5934.TAMPCommunityUpdateConfirm, Rfc5934.TAMPCommunityUpdateConfirm⟩,
   ⟨"rfc5934.py:761", Rfc5934.SequenceNumberAdjust, Rfc5934.SequenceNumberAdjust⟩,
   ⟨"rfc5934.py:762", Rfc5934.SequenceNumberAdjustConfirm, Rfc5934.SequenceNumberAdjustConfirm⟩,
   ⟨"rfc5934.py:763", Rfc5934.TAMPError, Rfc5934.TAMPError⟩,
   ⟨"rfc5934.py:773", Rfc5934.PlaintextSymmetricKey, Rfc5934.PlaintextSymmetricKey⟩,
   ⟨"rfc5934.py:783", Rfc5934.ApexContingencyKey, Rfc5934.ApexContingencyKey⟩]

/-- Functions rfc5934.py defines. -/
def builders : List (String × (List Py.OidArg → Py.Obj)) :=
  [("rfc5934._OID", Rfc5934._OID)]

def asModule : Py.Module :=
  { id := (Py.mod 83 "rfc5934"), imports := imports, effects := effects, classes := classes, objects := objects, protos := protos, snapshots := snapshots, builders := builders }

end Rfc5934
end Verif
