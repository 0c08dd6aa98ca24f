import Verif.Spec.Built
import Verif.Std.Rfc2511
import Verif.Built.Rfc2315
import Verif.Built.Rfc2459
import Verif.Std.Rfc2315
import Verif.Std.Rfc2459

/-! What rfc2511.py implements, where that is not the standard (generated by tools/builtgen.py). -/

namespace Verif
namespace Built
namespace Rfc2511

open Asn1 Verif.Std Spec.X680 Spec.Built

/-- `CertTemplate ::=` -/
def CertTemplate : Ty :=
  SEQUENCE [
    optional "version" (implicit .context 0 Std.Rfc2459.Version),
    optional "serialNumber" (implicit .context 1 INTEGER),
    optional "signingAlg" (implicit .context 2 Std.Rfc2459.AlgorithmIdentifier),
    optional "issuer" (implicit .context 3 Built.Rfc2459.Name),
    optional "validity" (implicit .context 4 Std.Rfc2511.OptionalValidity),
    optional "subject" (implicit .context 5 Built.Rfc2459.Name),
    optional "publicKey" (implicit .context 6 Std.Rfc2459.SubjectPublicKeyInfo),
    optional "issuerUID" (implicit .context 7 Std.Rfc2459.UniqueIdentifier),
    optional "subjectUID" (implicit .context 8 Std.Rfc2459.UniqueIdentifier),
    optional "extensions" (implicit .context 9 Std.Rfc2459.Extensions)]

/-- `CertRequest ::=` -/
def CertRequest : Ty :=
  SEQUENCE [
    mandatory "certReqId" INTEGER,
    mandatory "certTemplate" Built.Rfc2511.CertTemplate,
    optional "controls" Std.Rfc2511.Controls]

/-- `GeneralName ::=`, changed or supplied -/
def GeneralName : Ty :=
  OCTET_STRING

/-- `POPOSigningKeyInput ::=` -/
def POPOSigningKeyInput : Ty :=
  SEQUENCE [
    mandatory "authInfo" (CHOICE [
      mandatory "sender" (implicit .context 0 Built.Rfc2511.GeneralName),
      mandatory "publicKeyMAC" Std.Rfc2511.PKMACValue]),
    mandatory "publicKey" Std.Rfc2459.SubjectPublicKeyInfo]

/-- `POPOSigningKey ::=` -/
def POPOSigningKey : Ty :=
  SEQUENCE [
    optional "poposkInput" (implicit .context 0 Built.Rfc2511.POPOSigningKeyInput),
    mandatory "algorithmIdentifier" Std.Rfc2459.AlgorithmIdentifier,
    mandatory "signature" BIT_STRING]

/-- `ProofOfPossession ::=` -/
def ProofOfPossession : Ty :=
  CHOICE [
    mandatory "raVerified" (implicit .context 0 NULL),
    mandatory "signature" (implicit .context 1 Built.Rfc2511.POPOSigningKey),
    mandatory "keyEncipherment" (implicit .context 2 Std.Rfc2511.POPOPrivKey),
    mandatory "keyAgreement" (implicit .context 3 Std.Rfc2511.POPOPrivKey)]

/-- `CertReqMsg ::=`, changed or supplied -/
def CertReqMsg : Ty :=
  SEQUENCE [
    mandatory "certReq" Built.Rfc2511.CertRequest,
    optional "pop" Built.Rfc2511.ProofOfPossession,
    optional "regInfo" (constrained (SIZE_MAX 1) (SEQUENCE_OF Std.Rfc2459.AttributeTypeAndValue))]

/-- `CertReqMessages ::=` -/
def CertReqMessages : Ty :=
  constrained (SIZE_MAX 1) (SEQUENCE_OF Built.Rfc2511.CertReqMsg)

/-- `SinglePubInfo ::=` -/
def SinglePubInfo : Ty :=
  SEQUENCE [
    mandatory "pubMethod" (named [("dontCare", 0), ("x500", 1), ("web", 2), ("ldap", 3)] INTEGER),
    optional "pubLocation" Built.Rfc2511.GeneralName]

/-- `PKIPublicationInfo ::=` -/
def PKIPublicationInfo : Ty :=
  SEQUENCE [
    mandatory "action" (named [("dontPublish", 0), ("pleasePublish", 1)] INTEGER),
    optional "pubInfos" (constrained (SIZE_MAX 1) (SEQUENCE_OF Built.Rfc2511.SinglePubInfo))]

/-- `EncryptedKey ::=` -/
def EncryptedKey : Ty :=
  CHOICE [
    mandatory "encryptedValue" Std.Rfc2511.EncryptedValue,
    mandatory "envelopedData" (implicit .context 0 Built.Rfc2315.EnvelopedData)]

/-- `PKIArchiveOptions ::=` -/
def PKIArchiveOptions : Ty :=
  CHOICE [
    mandatory "encryptedPrivKey" (implicit .context 0 Built.Rfc2511.EncryptedKey),
    mandatory "keyGenParameters" (implicit .context 1 Std.Rfc2511.KeyGenParameters),
    mandatory "archiveRemGenPrivKey" (implicit .context 2 BOOLEAN)]

/-- `CertId ::=` -/
def CertId : Ty :=
  SEQUENCE [
    mandatory "issuer" Built.Rfc2511.GeneralName,
    mandatory "serialNumber" INTEGER]

/-- `OldCertId ::=` -/
def OldCertId : Ty :=
  Built.Rfc2511.CertId

/-- `CertReq ::=` -/
def CertReq : Ty :=
  Built.Rfc2511.CertRequest

def description : Description :=
  ⟨Verif.Rfc2511.asModule,
   [⟨"rfc2511.GeneralName", Verif.Rfc2511.GeneralName, Built.Rfc2511.GeneralName⟩,
    ⟨"rfc2511.UTF8Pairs", Verif.Rfc2511.UTF8Pairs, Std.Rfc2511.UTF8Pairs⟩,
    ⟨"rfc2511.ProtocolEncrKey", Verif.Rfc2511.ProtocolEncrKey, Std.Rfc2511.ProtocolEncrKey⟩,
    ⟨"rfc2511.CertId", Verif.Rfc2511.CertId, Built.Rfc2511.CertId⟩,
    ⟨"rfc2511.OldCertId", Verif.Rfc2511.OldCertId, Built.Rfc2511.OldCertId⟩,
    ⟨"rfc2511.KeyGenParameters", Verif.Rfc2511.KeyGenParameters, Std.Rfc2511.KeyGenParameters⟩,
    ⟨"rfc2511.EncryptedValue", Verif.Rfc2511.EncryptedValue, Std.Rfc2511.EncryptedValue⟩,
    ⟨"rfc2511.EncryptedKey", Verif.Rfc2511.EncryptedKey, Built.Rfc2511.EncryptedKey⟩,
    ⟨"rfc2511.PKIArchiveOptions", Verif.Rfc2511.PKIArchiveOptions, Built.Rfc2511.PKIArchiveOptions⟩,
    ⟨"rfc2511.SinglePubInfo", Verif.Rfc2511.SinglePubInfo, Built.Rfc2511.SinglePubInfo⟩,
    ⟨"rfc2511.PKIPublicationInfo", Verif.Rfc2511.PKIPublicationInfo, Built.Rfc2511.PKIPublicationInfo⟩,
    ⟨"rfc2511.Authenticator", Verif.Rfc2511.Authenticator, Std.Rfc2511.Authenticator⟩,
    ⟨"rfc2511.RegToken", Verif.Rfc2511.RegToken, Std.Rfc2511.RegToken⟩,
    ⟨"rfc2511.SubsequentMessage", Verif.Rfc2511.SubsequentMessage, Std.Rfc2511.SubsequentMessage⟩,
    ⟨"rfc2511.POPOPrivKey", Verif.Rfc2511.POPOPrivKey, Std.Rfc2511.POPOPrivKey⟩,
    ⟨"rfc2511.PBMParameter", Verif.Rfc2511.PBMParameter, Std.Rfc2511.PBMParameter⟩,
    ⟨"rfc2511.PKMACValue", Verif.Rfc2511.PKMACValue, Std.Rfc2511.PKMACValue⟩,
    ⟨"rfc2511.POPOSigningKeyInput", Verif.Rfc2511.POPOSigningKeyInput, Built.Rfc2511.POPOSigningKeyInput⟩,
    ⟨"rfc2511.POPOSigningKey", Verif.Rfc2511.POPOSigningKey, Built.Rfc2511.POPOSigningKey⟩,
    ⟨"rfc2511.ProofOfPossession", Verif.Rfc2511.ProofOfPossession, Built.Rfc2511.ProofOfPossession⟩,
    ⟨"rfc2511.Controls", Verif.Rfc2511.Controls, Std.Rfc2511.Controls⟩,
    ⟨"rfc2511.OptionalValidity", Verif.Rfc2511.OptionalValidity, Std.Rfc2511.OptionalValidity⟩,
    ⟨"rfc2511.CertTemplate", Verif.Rfc2511.CertTemplate, Built.Rfc2511.CertTemplate⟩,
    ⟨"rfc2511.CertRequest", Verif.Rfc2511.CertRequest, Built.Rfc2511.CertRequest⟩,
    ⟨"rfc2511.CertReq", Verif.Rfc2511.CertReq, Built.Rfc2511.CertReq⟩,
    ⟨"rfc2511.CertReqMsg", Verif.Rfc2511.CertReqMsg, Built.Rfc2511.CertReqMsg⟩,
    ⟨"rfc2511.CertReqMessages", Verif.Rfc2511.CertReqMessages, Built.Rfc2511.CertReqMessages⟩]⟩

end Rfc2511
end Built
end Verif
