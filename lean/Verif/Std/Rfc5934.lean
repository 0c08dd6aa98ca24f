import Verif.Spec.Grade
import Verif.Gen.Rfc5934
import Verif.Std.Rfc5280
import Verif.Std.Rfc5914

/-! The ASN.1 of tools/std/rfc5934.asn1 (generated by tools/stdgen.py). -/

namespace Verif
namespace Std
namespace Rfc5934

open Asn1 Spec.X680

/-- `TAMPVersion ::=` -/
def TAMPVersion : Ty :=
  named [("v1", 1), ("v2", 2)] INTEGER

/-- `TerseOrVerbose ::=` -/
def TerseOrVerbose : Ty :=
  named [("terse", 1), ("verbose", 2)] ENUMERATED

/-- `SeqNumber ::=` -/
def SeqNumber : Ty :=
  constrained (RANGE 0 9223372036854775807) INTEGER

/-- `HardwareSerialEntry ::=` -/
def HardwareSerialEntry : Ty :=
  CHOICE [
    mandatory "all" NULL,
    mandatory "single" OCTET_STRING,
    mandatory "block" (SEQUENCE [
      mandatory "low" OCTET_STRING,
      mandatory "high" OCTET_STRING])]

/-- `HardwareModules ::=` -/
def HardwareModules : Ty :=
  SEQUENCE [
    mandatory "hwType" OBJECT_IDENTIFIER,
    mandatory "hwSerialEntries" (constrained (SIZE_MAX 1) (SEQUENCE_OF HardwareSerialEntry))]

/-- `HardwareModuleIdentifierList ::=` -/
def HardwareModuleIdentifierList : Ty :=
  constrained (SIZE_MAX 1) (SEQUENCE_OF HardwareModules)

/-- `Community ::=` -/
def Community : Ty :=
  OBJECT_IDENTIFIER

/-- `CommunityIdentifierList ::=` -/
def CommunityIdentifierList : Ty :=
  constrained (SIZE_MAX 0) (SEQUENCE_OF Community)

/-- `TargetIdentifier ::=` -/
def TargetIdentifier : Ty :=
  CHOICE [
    mandatory "hwModules" (implicit .context 1 HardwareModuleIdentifierList),
    mandatory "communities" (implicit .context 2 CommunityIdentifierList),
    mandatory "allModules" (implicit .context 3 NULL),
    mandatory "uri" (implicit .context 4 IA5String),
    mandatory "otherName" (implicit .context 5 Std.Rfc5280.AnotherName)]

/-- `TAMPMsgRef ::=` -/
def TAMPMsgRef : Ty :=
  SEQUENCE [
    mandatory "target" TargetIdentifier,
    mandatory "seqNum" SeqNumber]

/-- `TAMPStatusQuery ::=` -/
def TAMPStatusQuery : Ty :=
  SEQUENCE [
    default "version" (implicit .context 0 TAMPVersion) (.int 2),
    default "terse" (implicit .context 1 TerseOrVerbose) (.int 2),
    mandatory "query" TAMPMsgRef]

/-- `KeyIdentifiers ::=` -/
def KeyIdentifiers : Ty :=
  constrained (SIZE_MAX 1) (SEQUENCE_OF Std.Rfc5280.KeyIdentifier)

/-- `TerseStatusResponse ::=` -/
def TerseStatusResponse : Ty :=
  SEQUENCE [
    mandatory "taKeyIds" KeyIdentifiers,
    optional "communities" CommunityIdentifierList]

/-- `TrustAnchorChoiceList ::=` -/
def TrustAnchorChoiceList : Ty :=
  constrained (SIZE_MAX 1) (SEQUENCE_OF Std.Rfc5914.TrustAnchorChoice)

/-- `TAMPSequenceNumber ::=` -/
def TAMPSequenceNumber : Ty :=
  SEQUENCE [
    mandatory "keyId" Std.Rfc5280.KeyIdentifier,
    mandatory "seqNumber" SeqNumber]

/-- `TAMPSequenceNumbers ::=` -/
def TAMPSequenceNumbers : Ty :=
  constrained (SIZE_MAX 1) (SEQUENCE_OF TAMPSequenceNumber)

/-- `VerboseStatusResponse ::=` -/
def VerboseStatusResponse : Ty :=
  SEQUENCE [
    mandatory "taInfo" TrustAnchorChoiceList,
    optional "continPubKeyDecryptAlg" (implicit .context 0 Std.Rfc5280.AlgorithmIdentifier),
    optional "communities" (implicit .context 1 CommunityIdentifierList),
    optional "tampSeqNumbers" (implicit .context 2 TAMPSequenceNumbers)]

/-- `StatusResponse ::=` -/
def StatusResponse : Ty :=
  CHOICE [
    mandatory "terseResponse" (implicit .context 0 TerseStatusResponse),
    mandatory "verboseResponse" (implicit .context 1 VerboseStatusResponse)]

/-- `TAMPStatusResponse ::=` -/
def TAMPStatusResponse : Ty :=
  SEQUENCE [
    default "version" (implicit .context 0 TAMPVersion) (.int 2),
    mandatory "query" TAMPMsgRef,
    mandatory "response" StatusResponse,
    default "usesApex" BOOLEAN (.int 1)]

/-- `TBSCertificateChangeInfo ::=` -/
def TBSCertificateChangeInfo : Ty :=
  SEQUENCE [
    optional "serialNumber" Std.Rfc5280.CertificateSerialNumber,
    optional "signature" (implicit .context 0 Std.Rfc5280.AlgorithmIdentifier),
    optional "issuer" (implicit .context 1 Std.Rfc5280.Name),
    optional "validity" (implicit .context 2 Std.Rfc5280.Validity),
    optional "subject" (implicit .context 3 Std.Rfc5280.Name),
    mandatory "subjectPublicKeyInfo" (implicit .context 4 Std.Rfc5280.SubjectPublicKeyInfo),
    optional "exts" (explicit .context 5 Std.Rfc5280.Extensions)]

/-- `TrustAnchorChangeInfo ::=` -/
def TrustAnchorChangeInfo : Ty :=
  SEQUENCE [
    mandatory "pubKey" Std.Rfc5280.SubjectPublicKeyInfo,
    optional "keyId" Std.Rfc5280.KeyIdentifier,
    optional "taTitle" Std.Rfc5914.TrustAnchorTitle,
    optional "certPath" Std.Rfc5914.CertPathControls,
    optional "exts" (implicit .context 1 Std.Rfc5280.Extensions)]

/-- `TrustAnchorChangeInfoChoice ::=` -/
def TrustAnchorChangeInfoChoice : Ty :=
  CHOICE [
    mandatory "tbsCertChange" (implicit .context 0 TBSCertificateChangeInfo),
    mandatory "taChange" (implicit .context 1 TrustAnchorChangeInfo)]

/-- `TrustAnchorUpdate ::=` -/
def TrustAnchorUpdate : Ty :=
  CHOICE [
    mandatory "add" (implicit .context 1 Std.Rfc5914.TrustAnchorChoice),
    mandatory "remove" (implicit .context 2 Std.Rfc5280.SubjectPublicKeyInfo),
    mandatory "change" (explicit .context 3 TrustAnchorChangeInfoChoice)]

/-- `TAMPUpdate ::=` -/
def TAMPUpdate : Ty :=
  SEQUENCE [
    default "version" (implicit .context 0 TAMPVersion) (.int 2),
    default "terse" (implicit .context 1 TerseOrVerbose) (.int 2),
    mandatory "msgRef" TAMPMsgRef,
    mandatory "updates" (constrained (SIZE_MAX 1) (SEQUENCE_OF TrustAnchorUpdate)),
    optional "tampSeqNumbers" (implicit .context 2 TAMPSequenceNumbers)]

/-- `StatusCode ::=` -/
def StatusCode : Ty :=
  named [("success", 0), ("decodeFailure", 1), ("badContentInfo", 2), ("badSignedData", 3), ("badEncapContent", 4), ("badCertificate", 5), ("badSignerInfo", 6), ("badSignedAttrs", 7), ("badUnsignedAttrs", 8), ("missingContent", 9), ("noTrustAnchor", 10), ("notAuthorized", 11), ("badDigestAlgorithm", 12), ("badSignatureAlgorithm", 13), ("unsupportedKeySize", 14), ("unsupportedParameters", 15), ("signatureFailure", 16), ("insufficientMemory", 17), ("unsupportedTAMPMsgType", 18), ("apexTAMPAnchor", 19), ("improperTAAddition", 20), ("seqNumFailure", 21), ("contingencyPublicKeyDecrypt", 22), ("incorrectTarget", 23), ("communityUpdateFailed", 24), ("trustAnchorNotFound", 25), ("unsupportedTAAlgorithm", 26), ("unsupportedTAKeySize", 27), ("unsupportedContinPubKeyDecryptAlg", 28), ("missingSignature", 29), ("resourcesBusy", 30), ("versionNumberMismatch", 31), ("missingPolicySet", 32), ("revokedCertificate", 33), ("unsupportedTrustAnchorFormat", 34), ("improperTAChange", 35), ("malformed", 36), ("cmsError", 37), ("unsupportedTargetIdentifier", 38), ("other", 127)] ENUMERATED

/-- `StatusCodeList ::=` -/
def StatusCodeList : Ty :=
  constrained (SIZE_MAX 1) (SEQUENCE_OF StatusCode)

/-- `TerseUpdateConfirm ::=` -/
def TerseUpdateConfirm : Ty :=
  StatusCodeList

/-- `VerboseUpdateConfirm ::=` -/
def VerboseUpdateConfirm : Ty :=
  SEQUENCE [
    mandatory "status" StatusCodeList,
    mandatory "taInfo" TrustAnchorChoiceList,
    optional "tampSeqNumbers" TAMPSequenceNumbers,
    default "usesApex" BOOLEAN (.int 1)]

/-- `UpdateConfirm ::=` -/
def UpdateConfirm : Ty :=
  CHOICE [
    mandatory "terseConfirm" (implicit .context 0 TerseUpdateConfirm),
    mandatory "verboseConfirm" (implicit .context 1 VerboseUpdateConfirm)]

/-- `TAMPUpdateConfirm ::=` -/
def TAMPUpdateConfirm : Ty :=
  SEQUENCE [
    default "version" (implicit .context 0 TAMPVersion) (.int 2),
    mandatory "update" TAMPMsgRef,
    mandatory "confirm" UpdateConfirm]

/-- `TAMPApexUpdate ::=` -/
def TAMPApexUpdate : Ty :=
  SEQUENCE [
    default "version" (implicit .context 0 TAMPVersion) (.int 2),
    default "terse" (implicit .context 1 TerseOrVerbose) (.int 2),
    mandatory "msgRef" TAMPMsgRef,
    mandatory "clearTrustAnchors" BOOLEAN,
    mandatory "clearCommunities" BOOLEAN,
    optional "seqNumber" SeqNumber,
    mandatory "apexTA" Std.Rfc5914.TrustAnchorChoice]

/-- `TerseApexUpdateConfirm ::=` -/
def TerseApexUpdateConfirm : Ty :=
  StatusCode

/-- `VerboseApexUpdateConfirm ::=` -/
def VerboseApexUpdateConfirm : Ty :=
  SEQUENCE [
    mandatory "status" StatusCode,
    mandatory "taInfo" TrustAnchorChoiceList,
    optional "communities" (implicit .context 0 CommunityIdentifierList),
    optional "tampSeqNumbers" (implicit .context 1 TAMPSequenceNumbers)]

/-- `ApexUpdateConfirm ::=` -/
def ApexUpdateConfirm : Ty :=
  CHOICE [
    mandatory "terseApexConfirm" (implicit .context 0 TerseApexUpdateConfirm),
    mandatory "verboseApexConfirm" (implicit .context 1 VerboseApexUpdateConfirm)]

/-- `TAMPApexUpdateConfirm ::=` -/
def TAMPApexUpdateConfirm : Ty :=
  SEQUENCE [
    default "version" (implicit .context 0 TAMPVersion) (.int 2),
    mandatory "apexReplace" TAMPMsgRef,
    mandatory "apexConfirm" ApexUpdateConfirm]

/-- `CommunityUpdates ::=` -/
def CommunityUpdates : Ty :=
  SEQUENCE [
    optional "remove" (implicit .context 1 CommunityIdentifierList),
    optional "add" (implicit .context 2 CommunityIdentifierList)]

/-- `TAMPCommunityUpdate ::=` -/
def TAMPCommunityUpdate : Ty :=
  SEQUENCE [
    default "version" (implicit .context 0 TAMPVersion) (.int 2),
    default "terse" (implicit .context 1 TerseOrVerbose) (.int 2),
    mandatory "msgRef" TAMPMsgRef,
    mandatory "updates" CommunityUpdates]

/-- `TerseCommunityConfirm ::=` -/
def TerseCommunityConfirm : Ty :=
  StatusCode

/-- `VerboseCommunityConfirm ::=` -/
def VerboseCommunityConfirm : Ty :=
  SEQUENCE [
    mandatory "status" StatusCode,
    optional "communities" CommunityIdentifierList]

/-- `CommunityConfirm ::=` -/
def CommunityConfirm : Ty :=
  CHOICE [
    mandatory "terseCommConfirm" (implicit .context 0 TerseCommunityConfirm),
    mandatory "verboseCommConfirm" (implicit .context 1 VerboseCommunityConfirm)]

/-- `TAMPCommunityUpdateConfirm ::=` -/
def TAMPCommunityUpdateConfirm : Ty :=
  SEQUENCE [
    default "version" (implicit .context 0 TAMPVersion) (.int 2),
    mandatory "update" TAMPMsgRef,
    mandatory "commConfirm" CommunityConfirm]

/-- `SequenceNumberAdjust ::=` -/
def SequenceNumberAdjust : Ty :=
  SEQUENCE [
    default "version" (implicit .context 0 TAMPVersion) (.int 2),
    mandatory "msgRef" TAMPMsgRef]

/-- `SequenceNumberAdjustConfirm ::=` -/
def SequenceNumberAdjustConfirm : Ty :=
  SEQUENCE [
    default "version" (implicit .context 0 TAMPVersion) (.int 2),
    mandatory "adjust" TAMPMsgRef,
    mandatory "status" StatusCode]

/-- `TAMPError ::=` -/
def TAMPError : Ty :=
  SEQUENCE [
    default "version" (implicit .context 0 TAMPVersion) (.int 2),
    mandatory "msgType" OBJECT_IDENTIFIER,
    mandatory "status" StatusCode,
    optional "msgRef" TAMPMsgRef]

/-- `PlaintextSymmetricKey ::=` -/
def PlaintextSymmetricKey : Ty :=
  OCTET_STRING

/-- `ApexContingencyKey ::=` -/
def ApexContingencyKey : Ty :=
  SEQUENCE [
    mandatory "wrapAlgorithm" Std.Rfc5280.AlgorithmIdentifier,
    mandatory "wrappedContinPubKey" OCTET_STRING]

/-- Classes of rfc5934.py and the types of the standard they implement. -/
def entries : List Entry :=
  [⟨"rfc5934.CertPathControls", Verif.Rfc5934.CertPathControls, Std.Rfc5914.CertPathControls, .relaxed, false⟩,
   ⟨"rfc5934.TrustAnchorChoice", Verif.Rfc5934.TrustAnchorChoice, Std.Rfc5914.TrustAnchorChoice, .relaxed, false⟩,
   ⟨"rfc5934.TrustAnchorTitle", Verif.Rfc5934.TrustAnchorTitle, Std.Rfc5914.TrustAnchorTitle, .same, false⟩,
   ⟨"rfc5934.AlgorithmIdentifier", Verif.Rfc5934.AlgorithmIdentifier, Std.Rfc5280.AlgorithmIdentifier, .same, false⟩,
   ⟨"rfc5934.AnotherName", Verif.Rfc5934.AnotherName, Std.Rfc5280.AnotherName, .same, false⟩,
   ⟨"rfc5934.Attribute", Verif.Rfc5934.Attribute, Std.Rfc5280.Attribute, .same, false⟩,
   ⟨"rfc5934.Certificate", Verif.Rfc5934.Certificate, Std.Rfc5280.Certificate, .same, false⟩,
   ⟨"rfc5934.CertificateSerialNumber", Verif.Rfc5934.CertificateSerialNumber, Std.Rfc5280.CertificateSerialNumber, .same, false⟩,
   ⟨"rfc5934.Extension", Verif.Rfc5934.Extension, Std.Rfc5280.Extension, .same, false⟩,
   ⟨"rfc5934.Extensions", Verif.Rfc5934.Extensions, Std.Rfc5280.Extensions, .same, false⟩,
   ⟨"rfc5934.KeyIdentifier", Verif.Rfc5934.KeyIdentifier, Std.Rfc5280.KeyIdentifier, .same, false⟩,
   ⟨"rfc5934.Name", Verif.Rfc5934.Name, Std.Rfc5280.Name, .same, false⟩,
   ⟨"rfc5934.SubjectPublicKeyInfo", Verif.Rfc5934.SubjectPublicKeyInfo, Std.Rfc5280.SubjectPublicKeyInfo, .same, false⟩,
   ⟨"rfc5934.TBSCertificate", Verif.Rfc5934.TBSCertificate, Std.Rfc5280.TBSCertificate, .same, false⟩,
   ⟨"rfc5934.Validity", Verif.Rfc5934.Validity, Std.Rfc5280.Validity, .same, false⟩,
   ⟨"rfc5934.TAMPVersion", Verif.Rfc5934.TAMPVersion, TAMPVersion, .same, false⟩,
   ⟨"rfc5934.TerseOrVerbose", Verif.Rfc5934.TerseOrVerbose, TerseOrVerbose, .same, false⟩,
   ⟨"rfc5934.HardwareSerialEntry", Verif.Rfc5934.HardwareSerialEntry, HardwareSerialEntry, .same, false⟩,
   ⟨"rfc5934.HardwareModules", Verif.Rfc5934.HardwareModules, HardwareModules, .same, false⟩,
   ⟨"rfc5934.HardwareModuleIdentifierList", Verif.Rfc5934.HardwareModuleIdentifierList, HardwareModuleIdentifierList, .same, false⟩,
   ⟨"rfc5934.Community", Verif.Rfc5934.Community, Community, .same, false⟩,
   ⟨"rfc5934.CommunityIdentifierList", Verif.Rfc5934.CommunityIdentifierList, CommunityIdentifierList, .same, false⟩,
   ⟨"rfc5934.TargetIdentifier", Verif.Rfc5934.TargetIdentifier, TargetIdentifier, .same, false⟩,
   ⟨"rfc5934.SeqNumber", Verif.Rfc5934.SeqNumber, SeqNumber, .same, false⟩,
   ⟨"rfc5934.TAMPMsgRef", Verif.Rfc5934.TAMPMsgRef, TAMPMsgRef, .same, false⟩,
   ⟨"rfc5934.TAMPStatusQuery", Verif.Rfc5934.TAMPStatusQuery, TAMPStatusQuery, .same, false⟩,
   ⟨"rfc5934.KeyIdentifiers", Verif.Rfc5934.KeyIdentifiers, KeyIdentifiers, .same, false⟩,
   ⟨"rfc5934.TrustAnchorChoiceList", Verif.Rfc5934.TrustAnchorChoiceList, TrustAnchorChoiceList, .relaxed, false⟩,
   ⟨"rfc5934.TAMPSequenceNumber", Verif.Rfc5934.TAMPSequenceNumber, TAMPSequenceNumber, .same, false⟩,
   ⟨"rfc5934.TAMPSequenceNumbers", Verif.Rfc5934.TAMPSequenceNumbers, TAMPSequenceNumbers, .same, false⟩,
   ⟨"rfc5934.TerseStatusResponse", Verif.Rfc5934.TerseStatusResponse, TerseStatusResponse, .same, false⟩,
   ⟨"rfc5934.VerboseStatusResponse", Verif.Rfc5934.VerboseStatusResponse, VerboseStatusResponse, .relaxed, false⟩,
   ⟨"rfc5934.StatusResponse", Verif.Rfc5934.StatusResponse, StatusResponse, .relaxed, false⟩,
   ⟨"rfc5934.TAMPStatusResponse", Verif.Rfc5934.TAMPStatusResponse, TAMPStatusResponse, .relaxed, false⟩,
   ⟨"rfc5934.TBSCertificateChangeInfo", Verif.Rfc5934.TBSCertificateChangeInfo, TBSCertificateChangeInfo, .same, false⟩,
   ⟨"rfc5934.TrustAnchorChangeInfo", Verif.Rfc5934.TrustAnchorChangeInfo, TrustAnchorChangeInfo, .relaxed, false⟩,
   ⟨"rfc5934.TrustAnchorChangeInfoChoice", Verif.Rfc5934.TrustAnchorChangeInfoChoice, TrustAnchorChangeInfoChoice, .relaxed, false⟩,
   ⟨"rfc5934.TrustAnchorUpdate", Verif.Rfc5934.TrustAnchorUpdate, TrustAnchorUpdate, .relaxed, false⟩,
   ⟨"rfc5934.TAMPUpdate", Verif.Rfc5934.TAMPUpdate, TAMPUpdate, .relaxed, false⟩,
   ⟨"rfc5934.StatusCode", Verif.Rfc5934.StatusCode, StatusCode, .same, false⟩,
   ⟨"rfc5934.StatusCodeList", Verif.Rfc5934.StatusCodeList, StatusCodeList, .same, false⟩,
   ⟨"rfc5934.TerseUpdateConfirm", Verif.Rfc5934.TerseUpdateConfirm, TerseUpdateConfirm, .same, false⟩,
   ⟨"rfc5934.VerboseUpdateConfirm", Verif.Rfc5934.VerboseUpdateConfirm, VerboseUpdateConfirm, .relaxed, false⟩,
   ⟨"rfc5934.UpdateConfirm", Verif.Rfc5934.UpdateConfirm, UpdateConfirm, .relaxed, false⟩,
   ⟨"rfc5934.TAMPUpdateConfirm", Verif.Rfc5934.TAMPUpdateConfirm, TAMPUpdateConfirm, .relaxed, false⟩,
   ⟨"rfc5934.TAMPApexUpdate", Verif.Rfc5934.TAMPApexUpdate, TAMPApexUpdate, .relaxed, false⟩,
   ⟨"rfc5934.TerseApexUpdateConfirm", Verif.Rfc5934.TerseApexUpdateConfirm, TerseApexUpdateConfirm, .same, false⟩,
   ⟨"rfc5934.VerboseApexUpdateConfirm", Verif.Rfc5934.VerboseApexUpdateConfirm, VerboseApexUpdateConfirm, .relaxed, false⟩,
   ⟨"rfc5934.ApexUpdateConfirm", Verif.Rfc5934.ApexUpdateConfirm, ApexUpdateConfirm, .relaxed, false⟩,
   ⟨"rfc5934.TAMPApexUpdateConfirm", Verif.Rfc5934.TAMPApexUpdateConfirm, TAMPApexUpdateConfirm, .relaxed, false⟩,
   ⟨"rfc5934.CommunityUpdates", Verif.Rfc5934.CommunityUpdates, CommunityUpdates, .same, false⟩,
   ⟨"rfc5934.TAMPCommunityUpdate", Verif.Rfc5934.TAMPCommunityUpdate, TAMPCommunityUpdate, .same, false⟩,
   ⟨"rfc5934.TerseCommunityConfirm", Verif.Rfc5934.TerseCommunityConfirm, TerseCommunityConfirm, .same, false⟩,
   ⟨"rfc5934.VerboseCommunityConfirm", Verif.Rfc5934.VerboseCommunityConfirm, VerboseCommunityConfirm, .same, false⟩,
   ⟨"rfc5934.CommunityConfirm", Verif.Rfc5934.CommunityConfirm, CommunityConfirm, .same, false⟩,
   ⟨"rfc5934.TAMPCommunityUpdateConfirm", Verif.Rfc5934.TAMPCommunityUpdateConfirm, TAMPCommunityUpdateConfirm, .same, false⟩,
   ⟨"rfc5934.SequenceNumberAdjust", Verif.Rfc5934.SequenceNumberAdjust, SequenceNumberAdjust, .same, false⟩,
   ⟨"rfc5934.SequenceNumberAdjustConfirm", Verif.Rfc5934.SequenceNumberAdjustConfirm, SequenceNumberAdjustConfirm, .same, false⟩,
   ⟨"rfc5934.TAMPError", Verif.Rfc5934.TAMPError, TAMPError, .same, false⟩,
   ⟨"rfc5934.PlaintextSymmetricKey", Verif.Rfc5934.PlaintextSymmetricKey, PlaintextSymmetricKey, .same, false⟩,
   ⟨"rfc5934.ApexContingencyKey", Verif.Rfc5934.ApexContingencyKey, ApexContingencyKey, .same, false⟩]

/-- Classes of rfc5934.py the transcription of the standard has no type for. -/
def beyond : List String :=
  ["rfc5934.SingleAttribute"]

/-- Constants of rfc5934.py and the values the standard gives them. -/
def constants : List Constant :=
  [⟨"rfc5934.id_tamp", Verif.Rfc5934.id_tamp, OBJECT_IDENTIFIER, .oid [2, 16, 840, 1, 101, 2, 1, 2, 77], true⟩,
   ⟨"rfc5934.id_ct_TAMP_statusQuery", Verif.Rfc5934.id_ct_TAMP_statusQuery, OBJECT_IDENTIFIER, .oid [2, 16, 840, 1, 101, 2, 1, 2, 77, 1], true⟩,
   ⟨"rfc5934.id_ct_TAMP_statusResponse", Verif.Rfc5934.id_ct_TAMP_statusResponse, OBJECT_IDENTIFIER, .oid [2, 16, 840, 1, 101, 2, 1, 2, 77, 2], true⟩,
   ⟨"rfc5934.id_ct_TAMP_update", Verif.Rfc5934.id_ct_TAMP_update, OBJECT_IDENTIFIER, .oid [2, 16, 840, 1, 101, 2, 1, 2, 77, 3], true⟩,
   ⟨"rfc5934.id_ct_TAMP_updateConfirm", Verif.Rfc5934.id_ct_TAMP_updateConfirm, OBJECT_IDENTIFIER, .oid [2, 16, 840, 1, 101, 2, 1, 2, 77, 4], true⟩,
   ⟨"rfc5934.id_ct_TAMP_apexUpdate", Verif.Rfc5934.id_ct_TAMP_apexUpdate, OBJECT_IDENTIFIER, .oid [2, 16, 840, 1, 101, 2, 1, 2, 77, 5], true⟩,
   ⟨"rfc5934.id_ct_TAMP_apexUpdateConfirm", Verif.Rfc5934.id_ct_TAMP_apexUpdateConfirm, OBJECT_IDENTIFIER, .oid [2, 16, 840, 1, 101, 2, 1, 2, 77, 6], true⟩,
   ⟨"rfc5934.id_ct_TAMP_communityUpdate", Verif.Rfc5934.id_ct_TAMP_communityUpdate, OBJECT_IDENTIFIER, .oid [2, 16, 840, 1, 101, 2, 1, 2, 77, 7], true⟩,
   ⟨"rfc5934.id_ct_TAMP_communityUpdateConfirm", Verif.Rfc5934.id_ct_TAMP_communityUpdateConfirm, OBJECT_IDENTIFIER, .oid [2, 16, 840, 1, 101, 2, 1, 2, 77, 8], true⟩,
   ⟨"rfc5934.id_ct_TAMP_seqNumAdjust", Verif.Rfc5934.id_ct_TAMP_seqNumAdjust, OBJECT_IDENTIFIER, .oid [2, 16, 840, 1, 101, 2, 1, 2, 77, 10], true⟩,
   ⟨"rfc5934.id_ct_TAMP_seqNumAdjustConfirm", Verif.Rfc5934.id_ct_TAMP_seqNumAdjustConfirm, OBJECT_IDENTIFIER, .oid [2, 16, 840, 1, 101, 2, 1, 2, 77, 11], true⟩,
   ⟨"rfc5934.id_ct_TAMP_error", Verif.Rfc5934.id_ct_TAMP_error, OBJECT_IDENTIFIER, .oid [2, 16, 840, 1, 101, 2, 1, 2, 77, 9], true⟩,
   ⟨"rfc5934.id_attributes", Verif.Rfc5934.id_attributes, OBJECT_IDENTIFIER, .oid [2, 16, 840, 1, 101, 2, 1, 5], true⟩,
   ⟨"rfc5934.id_aa_TAMP_contingencyPublicKeyDecryptKey", Verif.Rfc5934.id_aa_TAMP_contingencyPublicKeyDecryptKey, OBJECT_IDENTIFIER, .oid [2, 16, 840, 1, 101, 2, 1, 5, 63], true⟩,
   ⟨"rfc5934.id_pe_wrappedApexContinKey", Verif.Rfc5934.id_pe_wrappedApexContinKey, OBJECT_IDENTIFIER, .oid [1, 3, 6, 1, 5, 5, 7, 1, 20], true⟩]

/-- Constants of rfc5934.py the transcription of the standard has no value for. -/
def others : List String :=
  ["rfc5934.tamp_status_query",
   "rfc5934.tamp_status_response",
   "rfc5934.tamp_update",
   "rfc5934.tamp_update_confirm",
   "rfc5934.tamp_apex_update",
   "rfc5934.tamp_apex_update_confirm",
   "rfc5934.tamp_community_update",
   "rfc5934.tamp_community_update_confirm",
   "rfc5934.tamp_sequence_number_adjust",
   "rfc5934.tamp_sequence_number_adjust_confirm",
   "rfc5934.tamp_error",
   "rfc5934.contingency_public_key_decrypt_key",
   "rfc5934.wrappedApexContinKey"]

def standard : Standard := ⟨Verif.Rfc5934.asModule, entries, beyond, constants, others⟩

end Rfc5934
end Std
end Verif
