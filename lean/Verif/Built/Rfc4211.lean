import Verif.Spec.Built
import Verif.Std.Rfc4211
import Verif.Built.Rfc3280
import Verif.Std.Rfc3280

/-! What rfc4211.py implements, where that is not the standard (generated by tools/builtgen.py). -/

namespace Verif
namespace Built
namespace Rfc4211

open Asn1 Verif.Std Spec.X680 Spec.Built

/-- `CertReqMsg ::=`, changed or supplied -/
def CertReqMsg : Ty :=
  SEQUENCE [
    mandatory "certReq" Std.Rfc4211.CertRequest,
    optional "popo" Std.Rfc4211.ProofOfPossession,
    optional "regInfo" (SEQUENCE_OF Std.Rfc3280.AttributeTypeAndValue)]

/-- `CertReqMessages ::=` -/
def CertReqMessages : Ty :=
  constrained (SIZE_MAX 1) (SEQUENCE_OF Built.Rfc4211.CertReqMsg)

/-- `PKIPublicationInfo ::=`, changed or supplied -/
def PKIPublicationInfo : Ty :=
  SEQUENCE [
    mandatory "action" (named [("dontPublish", 0), ("pleasePublish", 1)] INTEGER),
    optional "pubInfos" (SEQUENCE_OF Std.Rfc4211.SinglePubInfo)]

def description : Description :=
  ⟨Verif.Rfc4211.asModule,
   [⟨"rfc4211.SinglePubInfo", Verif.Rfc4211.SinglePubInfo, Std.Rfc4211.SinglePubInfo⟩,
    ⟨"rfc4211.UTF8Pairs", Verif.Rfc4211.UTF8Pairs, Std.Rfc4211.UTF8Pairs⟩,
    ⟨"rfc4211.PKMACValue", Verif.Rfc4211.PKMACValue, Std.Rfc4211.PKMACValue⟩,
    ⟨"rfc4211.POPOSigningKeyInput", Verif.Rfc4211.POPOSigningKeyInput, Std.Rfc4211.POPOSigningKeyInput⟩,
    ⟨"rfc4211.POPOSigningKey", Verif.Rfc4211.POPOSigningKey, Std.Rfc4211.POPOSigningKey⟩,
    ⟨"rfc4211.Attributes", Verif.Rfc4211.Attributes, Std.Rfc4211.Attributes⟩,
    ⟨"rfc4211.PrivateKeyInfo", Verif.Rfc4211.PrivateKeyInfo, Std.Rfc4211.PrivateKeyInfo⟩,
    ⟨"rfc4211.EncryptedValue", Verif.Rfc4211.EncryptedValue, Std.Rfc4211.EncryptedValue⟩,
    ⟨"rfc4211.EncryptedKey", Verif.Rfc4211.EncryptedKey, Std.Rfc4211.EncryptedKey⟩,
    ⟨"rfc4211.KeyGenParameters", Verif.Rfc4211.KeyGenParameters, Std.Rfc4211.KeyGenParameters⟩,
    ⟨"rfc4211.PKIArchiveOptions", Verif.Rfc4211.PKIArchiveOptions, Std.Rfc4211.PKIArchiveOptions⟩,
    ⟨"rfc4211.ProtocolEncrKey", Verif.Rfc4211.ProtocolEncrKey, Std.Rfc4211.ProtocolEncrKey⟩,
    ⟨"rfc4211.Authenticator", Verif.Rfc4211.Authenticator, Std.Rfc4211.Authenticator⟩,
    ⟨"rfc4211.SubsequentMessage", Verif.Rfc4211.SubsequentMessage, Std.Rfc4211.SubsequentMessage⟩,
    ⟨"rfc4211.AttributeTypeAndValue", Verif.Rfc4211.AttributeTypeAndValue, Std.Rfc3280.AttributeTypeAndValue⟩,
    ⟨"rfc4211.POPOPrivKey", Verif.Rfc4211.POPOPrivKey, Std.Rfc4211.POPOPrivKey⟩,
    ⟨"rfc4211.ProofOfPossession", Verif.Rfc4211.ProofOfPossession, Std.Rfc4211.ProofOfPossession⟩,
    ⟨"rfc4211.OptionalValidity", Verif.Rfc4211.OptionalValidity, Std.Rfc4211.OptionalValidity⟩,
    ⟨"rfc4211.CertTemplate", Verif.Rfc4211.CertTemplate, Std.Rfc4211.CertTemplate⟩,
    ⟨"rfc4211.Controls", Verif.Rfc4211.Controls, Std.Rfc4211.Controls⟩,
    ⟨"rfc4211.CertRequest", Verif.Rfc4211.CertRequest, Std.Rfc4211.CertRequest⟩,
    ⟨"rfc4211.CertReqMsg", Verif.Rfc4211.CertReqMsg, Built.Rfc4211.CertReqMsg⟩,
    ⟨"rfc4211.CertReqMessages", Verif.Rfc4211.CertReqMessages, Built.Rfc4211.CertReqMessages⟩,
    ⟨"rfc4211.CertReq", Verif.Rfc4211.CertReq, Std.Rfc4211.CertReq⟩,
    ⟨"rfc4211.CertId", Verif.Rfc4211.CertId, Std.Rfc4211.CertId⟩,
    ⟨"rfc4211.OldCertId", Verif.Rfc4211.OldCertId, Std.Rfc4211.OldCertId⟩,
    ⟨"rfc4211.PKIPublicationInfo", Verif.Rfc4211.PKIPublicationInfo, Built.Rfc4211.PKIPublicationInfo⟩,
    ⟨"rfc4211.EncKeyWithID", Verif.Rfc4211.EncKeyWithID, Std.Rfc4211.EncKeyWithID⟩,
    ⟨"rfc4211.PBMParameter", Verif.Rfc4211.PBMParameter, Std.Rfc4211.PBMParameter⟩,
    ⟨"rfc4211.RegToken", Verif.Rfc4211.RegToken, Std.Rfc4211.RegToken⟩]⟩

end Rfc4211
end Built
end Verif
