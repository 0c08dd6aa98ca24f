import Verif.Spec.Built
import Verif.Std.Rfc5934
import Verif.Built.Rfc2985
import Verif.Built.Rfc5280
import Verif.Built.Rfc5914
import Verif.Std.Rfc2985
import Verif.Std.Rfc5280
import Verif.Std.Rfc5914

/-! What rfc5934.py implements, where that is not the standard (generated by tools/builtgen.py). -/

namespace Verif
namespace Built
namespace Rfc5934

open Asn1 Verif.Std Spec.X680 Spec.Built

/-- `TrustAnchorChoiceList ::=` -/
def TrustAnchorChoiceList : Ty :=
  constrained (SIZE_MAX 1) (SEQUENCE_OF Built.Rfc5914.TrustAnchorChoice)

/-- `VerboseStatusResponse ::=` -/
def VerboseStatusResponse : Ty :=
  SEQUENCE [
    mandatory "taInfo" Built.Rfc5934.TrustAnchorChoiceList,
    optional "continPubKeyDecryptAlg" (implicit .context 0 Std.Rfc5280.AlgorithmIdentifier),
    optional "communities" (implicit .context 1 Std.Rfc5934.CommunityIdentifierList),
    optional "tampSeqNumbers" (implicit .context 2 Std.Rfc5934.TAMPSequenceNumbers)]

/-- `StatusResponse ::=` -/
def StatusResponse : Ty :=
  CHOICE [
    mandatory "terseResponse" (implicit .context 0 Std.Rfc5934.TerseStatusResponse),
    mandatory "verboseResponse" (implicit .context 1 Built.Rfc5934.VerboseStatusResponse)]

/-- `TAMPStatusResponse ::=` -/
def TAMPStatusResponse : Ty :=
  SEQUENCE [
    default "version" (implicit .context 0 Std.Rfc5934.TAMPVersion) (.int 2),
    mandatory "query" Std.Rfc5934.TAMPMsgRef,
    mandatory "response" Built.Rfc5934.StatusResponse,
    default "usesApex" BOOLEAN (.int 1)]

/-- `TrustAnchorChangeInfo ::=` -/
def TrustAnchorChangeInfo : Ty :=
  SEQUENCE [
    mandatory "pubKey" Std.Rfc5280.SubjectPublicKeyInfo,
    optional "keyId" Std.Rfc5280.KeyIdentifier,
    optional "taTitle" Std.Rfc5914.TrustAnchorTitle,
    optional "certPath" Built.Rfc5914.CertPathControls,
    optional "exts" (implicit .context 1 Std.Rfc5280.Extensions)]

/-- `TrustAnchorChangeInfoChoice ::=` -/
def TrustAnchorChangeInfoChoice : Ty :=
  CHOICE [
    mandatory "tbsCertChange" (implicit .context 0 Std.Rfc5934.TBSCertificateChangeInfo),
    mandatory "taChange" (implicit .context 1 Built.Rfc5934.TrustAnchorChangeInfo)]

/-- `TrustAnchorUpdate ::=` -/
def TrustAnchorUpdate : Ty :=
  CHOICE [
    mandatory "add" (implicit .context 1 Built.Rfc5914.TrustAnchorChoice),
    mandatory "remove" (implicit .context 2 Std.Rfc5280.SubjectPublicKeyInfo),
    mandatory "change" (explicit .context 3 Built.Rfc5934.TrustAnchorChangeInfoChoice)]

/-- `TAMPUpdate ::=` -/
def TAMPUpdate : Ty :=
  SEQUENCE [
    default "version" (implicit .context 0 Std.Rfc5934.TAMPVersion) (.int 2),
    default "terse" (implicit .context 1 Std.Rfc5934.TerseOrVerbose) (.int 2),
    mandatory "msgRef" Std.Rfc5934.TAMPMsgRef,
    mandatory "updates" (constrained (SIZE_MAX 1) (SEQUENCE_OF Built.Rfc5934.TrustAnchorUpdate)),
    optional "tampSeqNumbers" (implicit .context 2 Std.Rfc5934.TAMPSequenceNumbers)]

/-- `VerboseUpdateConfirm ::=` -/
def VerboseUpdateConfirm : Ty :=
  SEQUENCE [
    mandatory "status" Std.Rfc5934.StatusCodeList,
    mandatory "taInfo" Built.Rfc5934.TrustAnchorChoiceList,
    optional "tampSeqNumbers" Std.Rfc5934.TAMPSequenceNumbers,
    default "usesApex" BOOLEAN (.int 1)]

/-- `UpdateConfirm ::=` -/
def UpdateConfirm : Ty :=
  CHOICE [
    mandatory "terseConfirm" (implicit .context 0 Std.Rfc5934.TerseUpdateConfirm),
    mandatory "verboseConfirm" (implicit .context 1 Built.Rfc5934.VerboseUpdateConfirm)]

/-- `TAMPUpdateConfirm ::=` -/
def TAMPUpdateConfirm : Ty :=
  SEQUENCE [
    default "version" (implicit .context 0 Std.Rfc5934.TAMPVersion) (.int 2),
    mandatory "update" Std.Rfc5934.TAMPMsgRef,
    mandatory "confirm" Built.Rfc5934.UpdateConfirm]

/-- `TAMPApexUpdate ::=` -/
def TAMPApexUpdate : Ty :=
  SEQUENCE [
    default "version" (implicit .context 0 Std.Rfc5934.TAMPVersion) (.int 2),
    default "terse" (implicit .context 1 Std.Rfc5934.TerseOrVerbose) (.int 2),
    mandatory "msgRef" Std.Rfc5934.TAMPMsgRef,
    mandatory "clearTrustAnchors" BOOLEAN,
    mandatory "clearCommunities" BOOLEAN,
    optional "seqNumber" Std.Rfc5934.SeqNumber,
    mandatory "apexTA" Built.Rfc5914.TrustAnchorChoice]

/-- `VerboseApexUpdateConfirm ::=` -/
def VerboseApexUpdateConfirm : Ty :=
  SEQUENCE [
    mandatory "status" Std.Rfc5934.StatusCode,
    mandatory "taInfo" Built.Rfc5934.TrustAnchorChoiceList,
    optional "communities" (implicit .context 0 Std.Rfc5934.CommunityIdentifierList),
    optional "tampSeqNumbers" (implicit .context 1 Std.Rfc5934.TAMPSequenceNumbers)]

/-- `ApexUpdateConfirm ::=` -/
def ApexUpdateConfirm : Ty :=
  CHOICE [
    mandatory "terseApexConfirm" (implicit .context 0 Std.Rfc5934.TerseApexUpdateConfirm),
    mandatory "verboseApexConfirm" (implicit .context 1 Built.Rfc5934.VerboseApexUpdateConfirm)]

/-- `TAMPApexUpdateConfirm ::=` -/
def TAMPApexUpdateConfirm : Ty :=
  SEQUENCE [
    default "version" (implicit .context 0 Std.Rfc5934.TAMPVersion) (.int 2),
    mandatory "apexReplace" Std.Rfc5934.TAMPMsgRef,
    mandatory "apexConfirm" Built.Rfc5934.ApexUpdateConfirm]

/-- `SingleAttribute ::=`, changed or supplied -/
def SingleAttribute : Ty :=
  Built.Rfc2985.SingleAttribute

def description : Description :=
  ⟨Verif.Rfc5934.asModule,
   [⟨"rfc5934.SingleAttribute", Verif.Rfc5934.SingleAttribute, Built.Rfc5934.SingleAttribute⟩,
    ⟨"rfc5934.CertPathControls", Verif.Rfc5934.CertPathControls, Built.Rfc5914.CertPathControls⟩,
    ⟨"rfc5934.TrustAnchorChoice", Verif.Rfc5934.TrustAnchorChoice, Built.Rfc5914.TrustAnchorChoice⟩,
    ⟨"rfc5934.TrustAnchorTitle", Verif.Rfc5934.TrustAnchorTitle, Std.Rfc5914.TrustAnchorTitle⟩,
    ⟨"rfc5934.AlgorithmIdentifier", Verif.Rfc5934.AlgorithmIdentifier, Std.Rfc5280.AlgorithmIdentifier⟩,
    ⟨"rfc5934.AnotherName", Verif.Rfc5934.AnotherName, Std.Rfc5280.AnotherName⟩,
    ⟨"rfc5934.Attribute", Verif.Rfc5934.Attribute, Std.Rfc5280.Attribute⟩,
    ⟨"rfc5934.Certificate", Verif.Rfc5934.Certificate, Std.Rfc5280.Certificate⟩,
    ⟨"rfc5934.CertificateSerialNumber", Verif.Rfc5934.CertificateSerialNumber, Std.Rfc5280.CertificateSerialNumber⟩,
    ⟨"rfc5934.Extension", Verif.Rfc5934.Extension, Std.Rfc5280.Extension⟩,
    ⟨"rfc5934.Extensions", Verif.Rfc5934.Extensions, Std.Rfc5280.Extensions⟩,
    ⟨"rfc5934.KeyIdentifier", Verif.Rfc5934.KeyIdentifier, Std.Rfc5280.KeyIdentifier⟩,
    ⟨"rfc5934.Name", Verif.Rfc5934.Name, Std.Rfc5280.Name⟩,
    ⟨"rfc5934.SubjectPublicKeyInfo", Verif.Rfc5934.SubjectPublicKeyInfo, Std.Rfc5280.SubjectPublicKeyInfo⟩,
    ⟨"rfc5934.TBSCertificate", Verif.Rfc5934.TBSCertificate, Std.Rfc5280.TBSCertificate⟩,
    ⟨"rfc5934.Validity", Verif.Rfc5934.Validity, Std.Rfc5280.Validity⟩,
    ⟨"rfc5934.TAMPVersion", Verif.Rfc5934.TAMPVersion, Std.Rfc5934.TAMPVersion⟩,
    ⟨"rfc5934.TerseOrVerbose", Verif.Rfc5934.TerseOrVerbose, Std.Rfc5934.TerseOrVerbose⟩,
    ⟨"rfc5934.HardwareSerialEntry", Verif.Rfc5934.HardwareSerialEntry, Std.Rfc5934.HardwareSerialEntry⟩,
    ⟨"rfc5934.HardwareModules", Verif.Rfc5934.HardwareModules, Std.Rfc5934.HardwareModules⟩,
    ⟨"rfc5934.HardwareModuleIdentifierList", Verif.Rfc5934.HardwareModuleIdentifierList, Std.Rfc5934.HardwareModuleIdentifierList⟩,
    ⟨"rfc5934.Community", Verif.Rfc5934.Community, Std.Rfc5934.Community⟩,
    ⟨"rfc5934.CommunityIdentifierList", Verif.Rfc5934.CommunityIdentifierList, Std.Rfc5934.CommunityIdentifierList⟩,
    ⟨"rfc5934.TargetIdentifier", Verif.Rfc5934.TargetIdentifier, Std.Rfc5934.TargetIdentifier⟩,
    ⟨"rfc5934.SeqNumber", Verif.Rfc5934.SeqNumber, Std.Rfc5934.SeqNumber⟩,
    ⟨"rfc5934.TAMPMsgRef", Verif.Rfc5934.TAMPMsgRef, Std.Rfc5934.TAMPMsgRef⟩,
    ⟨"rfc5934.TAMPStatusQuery", Verif.Rfc5934.TAMPStatusQuery, Std.Rfc5934.TAMPStatusQuery⟩,
    ⟨"rfc5934.KeyIdentifiers", Verif.Rfc5934.KeyIdentifiers, Std.Rfc5934.KeyIdentifiers⟩,
    ⟨"rfc5934.TrustAnchorChoiceList", Verif.Rfc5934.TrustAnchorChoiceList, Built.Rfc5934.TrustAnchorChoiceList⟩,
    ⟨"rfc5934.TAMPSequenceNumber", Verif.Rfc5934.TAMPSequenceNumber, Std.Rfc5934.TAMPSequenceNumber⟩,
    ⟨"rfc5934.TAMPSequenceNumbers", Verif.Rfc5934.TAMPSequenceNumbers, Std.Rfc5934.TAMPSequenceNumbers⟩,
    ⟨"rfc5934.TerseStatusResponse", Verif.Rfc5934.TerseStatusResponse, Std.Rfc5934.TerseStatusResponse⟩,
    ⟨"rfc5934.VerboseStatusResponse", Verif.Rfc5934.VerboseStatusResponse, Built.Rfc5934.VerboseStatusResponse⟩,
    ⟨"rfc5934.StatusResponse", Verif.Rfc5934.StatusResponse, Built.Rfc5934.StatusResponse⟩,
    ⟨"rfc5934.TAMPStatusResponse", Verif.Rfc5934.TAMPStatusResponse, Built.Rfc5934.TAMPStatusResponse⟩,
    ⟨"rfc5934.TBSCertificateChangeInfo", Verif.Rfc5934.TBSCertificateChangeInfo, Std.Rfc5934.TBSCertificateChangeInfo⟩,
    ⟨"rfc5934.TrustAnchorChangeInfo", Verif.Rfc5934.TrustAnchorChangeInfo, Built.Rfc5934.TrustAnchorChangeInfo⟩,
    ⟨"rfc5934.TrustAnchorChangeInfoChoice", Verif.Rfc5934.TrustAnchorChangeInfoChoice, Built.Rfc5934.TrustAnchorChangeInfoChoice⟩,
    ⟨"rfc5934.TrustAnchorUpdate", Verif.Rfc5934.TrustAnchorUpdate, Built.Rfc5934.TrustAnchorUpdate⟩,
    ⟨"rfc5934.TAMPUpdate", Verif.Rfc5934.TAMPUpdate, Built.Rfc5934.TAMPUpdate⟩,
    ⟨"rfc5934.StatusCode", Verif.Rfc5934.StatusCode, Std.Rfc5934.StatusCode⟩,
    ⟨"rfc5934.StatusCodeList", Verif.Rfc5934.StatusCodeList, Std.Rfc5934.StatusCodeList⟩,
    ⟨"rfc5934.TerseUpdateConfirm", Verif.Rfc5934.TerseUpdateConfirm, Std.Rfc5934.TerseUpdateConfirm⟩,
    ⟨"rfc5934.VerboseUpdateConfirm", Verif.Rfc5934.VerboseUpdateConfirm, Built.Rfc5934.VerboseUpdateConfirm⟩,
    ⟨"rfc5934.UpdateConfirm", Verif.Rfc5934.UpdateConfirm, Built.Rfc5934.UpdateConfirm⟩,
    ⟨"rfc5934.TAMPUpdateConfirm", Verif.Rfc5934.TAMPUpdateConfirm, Built.Rfc5934.TAMPUpdateConfirm⟩,
    ⟨"rfc5934.TAMPApexUpdate", Verif.Rfc5934.TAMPApexUpdate, Built.Rfc5934.TAMPApexUpdate⟩,
    ⟨"rfc5934.TerseApexUpdateConfirm", Verif.Rfc5934.TerseApexUpdateConfirm, Std.Rfc5934.TerseApexUpdateConfirm⟩,
    ⟨"rfc5934.VerboseApexUpdateConfirm", Verif.Rfc5934.VerboseApexUpdateConfirm, Built.Rfc5934.VerboseApexUpdateConfirm⟩,
    ⟨"rfc5934.ApexUpdateConfirm", Verif.Rfc5934.ApexUpdateConfirm, Built.Rfc5934.ApexUpdateConfirm⟩,
    ⟨"rfc5934.TAMPApexUpdateConfirm", Verif.Rfc5934.TAMPApexUpdateConfirm, Built.Rfc5934.TAMPApexUpdateConfirm⟩,
    ⟨"rfc5934.CommunityUpdates", Verif.Rfc5934.CommunityUpdates, Std.Rfc5934.CommunityUpdates⟩,
    ⟨"rfc5934.TAMPCommunityUpdate", Verif.Rfc5934.TAMPCommunityUpdate, Std.Rfc5934.TAMPCommunityUpdate⟩,
    ⟨"rfc5934.TerseCommunityConfirm", Verif.Rfc5934.TerseCommunityConfirm, Std.Rfc5934.TerseCommunityConfirm⟩,
    ⟨"rfc5934.VerboseCommunityConfirm", Verif.Rfc5934.VerboseCommunityConfirm, Std.Rfc5934.VerboseCommunityConfirm⟩,
    ⟨"rfc5934.CommunityConfirm", Verif.Rfc5934.CommunityConfirm, Std.Rfc5934.CommunityConfirm⟩,
    ⟨"rfc5934.TAMPCommunityUpdateConfirm", Verif.Rfc5934.TAMPCommunityUpdateConfirm, Std.Rfc5934.TAMPCommunityUpdateConfirm⟩,
    ⟨"rfc5934.SequenceNumberAdjust", Verif.Rfc5934.SequenceNumberAdjust, Std.Rfc5934.SequenceNumberAdjust⟩,
    ⟨"rfc5934.SequenceNumberAdjustConfirm", Verif.Rfc5934.SequenceNumberAdjustConfirm, Std.Rfc5934.SequenceNumberAdjustConfirm⟩,
    ⟨"rfc5934.TAMPError", Verif.Rfc5934.TAMPError, Std.Rfc5934.TAMPError⟩,
    ⟨"rfc5934.PlaintextSymmetricKey", Verif.Rfc5934.PlaintextSymmetricKey, Std.Rfc5934.PlaintextSymmetricKey⟩,
    ⟨"rfc5934.ApexContingencyKey", Verif.Rfc5934.ApexContingencyKey, Std.Rfc5934.ApexContingencyKey⟩]⟩

end Rfc5934
end Built
end Verif
