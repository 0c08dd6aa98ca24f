import Verif.Spec.Built
import Verif.Std.Rfc4210
import Verif.Built.Rfc2314
import Verif.Built.Rfc2459
import Verif.Built.Rfc2511
import Verif.Std.Rfc2314
import Verif.Std.Rfc2459
import Verif.Std.Rfc2511

/-! What rfc4210.py implements, where that is not the standard (generated by tools/builtgen.py). -/

namespace Verif
namespace Built
namespace Rfc4210

open Asn1 Verif.Std Spec.X680 Spec.Built

/-- `CMPCertificate ::=`, changed or supplied -/
def CMPCertificate : Ty :=
  Built.Rfc2459.Certificate

/-- `PKIHeader ::=`, changed or supplied -/
def PKIHeader : Ty :=
  SEQUENCE [
    mandatory "pvno" (named [("cmp1999", 1), ("cmp2000", 2)] INTEGER),
    mandatory "sender" Built.Rfc2459.GeneralName,
    mandatory "recipient" Built.Rfc2459.GeneralName,
    optional "messageTime" (explicit .context 0 GeneralizedTime),
    optional "protectionAlg" (explicit .context 1 Std.Rfc2459.AlgorithmIdentifier),
    optional "senderKID" (explicit .context 2 Std.Rfc2459.KeyIdentifier),
    optional "recipKID" (explicit .context 3 Std.Rfc2459.KeyIdentifier),
    optional "transactionID" (explicit .context 4 OCTET_STRING),
    optional "senderNonce" (explicit .context 5 OCTET_STRING),
    optional "recipNonce" (explicit .context 6 OCTET_STRING),
    optional "freeText" (explicit .context 7 Std.Rfc4210.PKIFreeText),
    optional "generalInfo" (explicit .context 8 (SEQUENCE_OF (constrained (SIZE_MAX 1) Std.Rfc4210.InfoTypeAndValue)))]

/-- `PBMParameter ::=`, changed or supplied -/
def PBMParameter : Ty :=
  SEQUENCE [
    mandatory "salt" (constrained (SIZE 0 128) OCTET_STRING),
    mandatory "owf" Std.Rfc2459.AlgorithmIdentifier,
    mandatory "iterationCount" INTEGER,
    mandatory "mac" Std.Rfc2459.AlgorithmIdentifier]

/-- `OOBCert ::=` -/
def OOBCert : Ty :=
  Built.Rfc4210.CMPCertificate

/-- `OOBCertHash ::=` -/
def OOBCertHash : Ty :=
  SEQUENCE [
    optional "hashAlg" (explicit .context 0 Std.Rfc2459.AlgorithmIdentifier),
    optional "certId" (explicit .context 1 Built.Rfc2511.CertId),
    mandatory "hashVal" BIT_STRING]

/-- `CertOrEncCert ::=` -/
def CertOrEncCert : Ty :=
  CHOICE [
    mandatory "certificate" (explicit .context 0 Built.Rfc4210.CMPCertificate),
    mandatory "encryptedCert" (explicit .context 1 Std.Rfc2511.EncryptedValue)]

/-- `CertifiedKeyPair ::=` -/
def CertifiedKeyPair : Ty :=
  SEQUENCE [
    mandatory "certOrEncCert" Built.Rfc4210.CertOrEncCert,
    optional "privateKey" (explicit .context 0 Std.Rfc2511.EncryptedValue),
    optional "publicationInfo" (explicit .context 1 Built.Rfc2511.PKIPublicationInfo)]

/-- `CertResponse ::=` -/
def CertResponse : Ty :=
  SEQUENCE [
    mandatory "certReqId" INTEGER,
    mandatory "status" Std.Rfc4210.PKIStatusInfo,
    optional "certifiedKeyPair" Built.Rfc4210.CertifiedKeyPair,
    optional "rspInfo" OCTET_STRING]

/-- `CertRepMessage ::=` -/
def CertRepMessage : Ty :=
  SEQUENCE [
    optional "caPubs" (explicit .context 1 (constrained (SIZE_MAX 1) (SEQUENCE_OF Built.Rfc4210.CMPCertificate))),
    mandatory "response" (SEQUENCE_OF Built.Rfc4210.CertResponse)]

/-- `KeyRecRepContent ::=` -/
def KeyRecRepContent : Ty :=
  SEQUENCE [
    mandatory "status" Std.Rfc4210.PKIStatusInfo,
    optional "newSigCert" (explicit .context 0 Built.Rfc4210.CMPCertificate),
    optional "caCerts" (explicit .context 1 (constrained (SIZE_MAX 1) (SEQUENCE_OF Built.Rfc4210.CMPCertificate))),
    optional "keyPairHist" (explicit .context 2 (constrained (SIZE_MAX 1) (SEQUENCE_OF Built.Rfc4210.CertifiedKeyPair)))]

/-- `RevDetails ::=` -/
def RevDetails : Ty :=
  SEQUENCE [
    mandatory "certDetails" Built.Rfc2511.CertTemplate,
    optional "crlEntryDetails" Std.Rfc2459.Extensions]

/-- `RevReqContent ::=` -/
def RevReqContent : Ty :=
  SEQUENCE_OF Built.Rfc4210.RevDetails

/-- `RevRepContent ::=` -/
def RevRepContent : Ty :=
  SEQUENCE [
    mandatory "status" (constrained (SIZE_MAX 1) (SEQUENCE_OF Std.Rfc4210.PKIStatusInfo)),
    optional "revCerts" (explicit .context 0 (constrained (SIZE_MAX 1) (SEQUENCE_OF Built.Rfc2511.CertId))),
    optional "crls" (explicit .context 1 (constrained (SIZE_MAX 1) (SEQUENCE_OF Built.Rfc2459.CertificateList)))]

/-- `CAKeyUpdAnnContent ::=` -/
def CAKeyUpdAnnContent : Ty :=
  SEQUENCE [
    mandatory "oldWithNew" Built.Rfc4210.CMPCertificate,
    mandatory "newWithOld" Built.Rfc4210.CMPCertificate,
    mandatory "newWithNew" Built.Rfc4210.CMPCertificate]

/-- `CertAnnContent ::=` -/
def CertAnnContent : Ty :=
  Built.Rfc4210.CMPCertificate

/-- `RevAnnContent ::=` -/
def RevAnnContent : Ty :=
  SEQUENCE [
    mandatory "status" Std.Rfc4210.PKIStatus,
    mandatory "certId" Built.Rfc2511.CertId,
    mandatory "willBeRevokedAt" GeneralizedTime,
    mandatory "badSinceDate" GeneralizedTime,
    optional "crlDetails" Std.Rfc2459.Extensions]

/-- `CRLAnnContent ::=` -/
def CRLAnnContent : Ty :=
  SEQUENCE_OF Built.Rfc2459.CertificateList

/-- `NestedMessageContent ::=`, changed or supplied -/
def NestedMessageContent : Ty :=
  SEQUENCE_OF ANY

/-- `PKIBody ::=`, changed or supplied -/
def PKIBody : Ty :=
  CHOICE [
    mandatory "ir" (explicit .context 0 Built.Rfc2511.CertReqMessages),
    mandatory "ip" (explicit .context 1 Built.Rfc4210.CertRepMessage),
    mandatory "cr" (explicit .context 2 Built.Rfc2511.CertReqMessages),
    mandatory "cp" (explicit .context 3 Built.Rfc4210.CertRepMessage),
    mandatory "p10cr" (explicit .context 4 Built.Rfc2314.CertificationRequest),
    mandatory "popdecc" (explicit .context 5 Std.Rfc4210.POPODecKeyChallContent),
    mandatory "popdecr" (explicit .context 6 Std.Rfc4210.POPODecKeyRespContent),
    mandatory "kur" (explicit .context 7 Built.Rfc2511.CertReqMessages),
    mandatory "kup" (explicit .context 8 Built.Rfc4210.CertRepMessage),
    mandatory "krr" (explicit .context 9 Built.Rfc2511.CertReqMessages),
    mandatory "krp" (explicit .context 10 Built.Rfc4210.KeyRecRepContent),
    mandatory "rr" (explicit .context 11 Built.Rfc4210.RevReqContent),
    mandatory "rp" (explicit .context 12 Built.Rfc4210.RevRepContent),
    mandatory "ccr" (explicit .context 13 Built.Rfc2511.CertReqMessages),
    mandatory "ccp" (explicit .context 14 Built.Rfc4210.CertRepMessage),
    mandatory "ckuann" (explicit .context 15 Built.Rfc4210.CAKeyUpdAnnContent),
    mandatory "cann" (explicit .context 16 Built.Rfc4210.CertAnnContent),
    mandatory "rann" (explicit .context 17 Built.Rfc4210.RevAnnContent),
    mandatory "crlann" (explicit .context 18 Built.Rfc4210.CRLAnnContent),
    mandatory "pkiconf" (explicit .context 19 Std.Rfc4210.PKIConfirmContent),
    mandatory "nested" (explicit .context 20 Built.Rfc4210.NestedMessageContent),
    mandatory "genm" (explicit .context 21 Std.Rfc4210.GenMsgContent),
    mandatory "gen" (explicit .context 22 Std.Rfc4210.GenRepContent),
    mandatory "error" (explicit .context 23 Std.Rfc4210.ErrorMsgContent),
    mandatory "certConf" (explicit .context 24 Std.Rfc4210.CertConfirmContent),
    mandatory "pollReq" (explicit .context 25 Std.Rfc4210.PollReqContent),
    mandatory "pollRep" (explicit .context 26 Std.Rfc4210.PollRepContent)]

/-- `ProtectedPart ::=`, changed or supplied -/
def ProtectedPart : Ty :=
  SEQUENCE [
    mandatory "header" Built.Rfc4210.PKIHeader,
    mandatory "infoValue" Built.Rfc4210.PKIBody]

/-- `PKIMessage ::=` -/
def PKIMessage : Ty :=
  SEQUENCE [
    mandatory "header" Built.Rfc4210.PKIHeader,
    mandatory "body" Built.Rfc4210.PKIBody,
    optional "protection" (explicit .context 0 Std.Rfc4210.PKIProtection),
    optional "extraCerts" (explicit .context 1 (constrained (SIZE_MAX 1) (SEQUENCE_OF Built.Rfc4210.CMPCertificate)))]

/-- `PKIMessages ::=` -/
def PKIMessages : Ty :=
  constrained (SIZE_MAX 1) (SEQUENCE_OF Built.Rfc4210.PKIMessage)

/-- `PollRepContent-CertReq ::=`, changed or supplied -/
def PollRepContent_CertReq : Ty :=
  SEQUENCE [
    mandatory "certReqId" INTEGER,
    mandatory "checkAfter" INTEGER,
    optional "reason" Std.Rfc4210.PKIFreeText]

/-- `PollReqContent-CertReq ::=`, changed or supplied -/
def PollReqContent_CertReq : Ty :=
  SEQUENCE [
    mandatory "certReqId" INTEGER]

def description : Description :=
  ⟨Verif.Rfc4210.asModule,
   [⟨"rfc4210.KeyIdentifier", Verif.Rfc4210.KeyIdentifier, Std.Rfc2459.KeyIdentifier⟩,
    ⟨"rfc4210.CMPCertificate", Verif.Rfc4210.CMPCertificate, Built.Rfc4210.CMPCertificate⟩,
    ⟨"rfc4210.OOBCert", Verif.Rfc4210.OOBCert, Built.Rfc4210.OOBCert⟩,
    ⟨"rfc4210.CertAnnContent", Verif.Rfc4210.CertAnnContent, Built.Rfc4210.CertAnnContent⟩,
    ⟨"rfc4210.PKIFreeText", Verif.Rfc4210.PKIFreeText, Std.Rfc4210.PKIFreeText⟩,
    ⟨"rfc4210.PollRepContent", Verif.Rfc4210.PollRepContent, Std.Rfc4210.PollRepContent⟩,
    ⟨"rfc4210.PollReqContent", Verif.Rfc4210.PollReqContent, Std.Rfc4210.PollReqContent⟩,
    ⟨"rfc4210.InfoTypeAndValue", Verif.Rfc4210.InfoTypeAndValue, Std.Rfc4210.InfoTypeAndValue⟩,
    ⟨"rfc4210.GenRepContent", Verif.Rfc4210.GenRepContent, Std.Rfc4210.GenRepContent⟩,
    ⟨"rfc4210.GenMsgContent", Verif.Rfc4210.GenMsgContent, Std.Rfc4210.GenMsgContent⟩,
    ⟨"rfc4210.PKIConfirmContent", Verif.Rfc4210.PKIConfirmContent, Std.Rfc4210.PKIConfirmContent⟩,
    ⟨"rfc4210.CRLAnnContent", Verif.Rfc4210.CRLAnnContent, Built.Rfc4210.CRLAnnContent⟩,
    ⟨"rfc4210.CAKeyUpdAnnContent", Verif.Rfc4210.CAKeyUpdAnnContent, Built.Rfc4210.CAKeyUpdAnnContent⟩,
    ⟨"rfc4210.RevDetails", Verif.Rfc4210.RevDetails, Built.Rfc4210.RevDetails⟩,
    ⟨"rfc4210.RevReqContent", Verif.Rfc4210.RevReqContent, Built.Rfc4210.RevReqContent⟩,
    ⟨"rfc4210.CertOrEncCert", Verif.Rfc4210.CertOrEncCert, Built.Rfc4210.CertOrEncCert⟩,
    ⟨"rfc4210.CertifiedKeyPair", Verif.Rfc4210.CertifiedKeyPair, Built.Rfc4210.CertifiedKeyPair⟩,
    ⟨"rfc4210.POPODecKeyRespContent", Verif.Rfc4210.POPODecKeyRespContent, Std.Rfc4210.POPODecKeyRespContent⟩,
    ⟨"rfc4210.Challenge", Verif.Rfc4210.Challenge, Std.Rfc4210.Challenge⟩,
    ⟨"rfc4210.PKIStatus", Verif.Rfc4210.PKIStatus, Std.Rfc4210.PKIStatus⟩,
    ⟨"rfc4210.PKIFailureInfo", Verif.Rfc4210.PKIFailureInfo, Std.Rfc4210.PKIFailureInfo⟩,
    ⟨"rfc4210.PKIStatusInfo", Verif.Rfc4210.PKIStatusInfo, Std.Rfc4210.PKIStatusInfo⟩,
    ⟨"rfc4210.ErrorMsgContent", Verif.Rfc4210.ErrorMsgContent, Std.Rfc4210.ErrorMsgContent⟩,
    ⟨"rfc4210.CertStatus", Verif.Rfc4210.CertStatus, Std.Rfc4210.CertStatus⟩,
    ⟨"rfc4210.CertConfirmContent", Verif.Rfc4210.CertConfirmContent, Std.Rfc4210.CertConfirmContent⟩,
    ⟨"rfc4210.RevAnnContent", Verif.Rfc4210.RevAnnContent, Built.Rfc4210.RevAnnContent⟩,
    ⟨"rfc4210.RevRepContent", Verif.Rfc4210.RevRepContent, Built.Rfc4210.RevRepContent⟩,
    ⟨"rfc4210.KeyRecRepContent", Verif.Rfc4210.KeyRecRepContent, Built.Rfc4210.KeyRecRepContent⟩,
    ⟨"rfc4210.CertResponse", Verif.Rfc4210.CertResponse, Built.Rfc4210.CertResponse⟩,
    ⟨"rfc4210.CertRepMessage", Verif.Rfc4210.CertRepMessage, Built.Rfc4210.CertRepMessage⟩,
    ⟨"rfc4210.POPODecKeyChallContent", Verif.Rfc4210.POPODecKeyChallContent, Std.Rfc4210.POPODecKeyChallContent⟩,
    ⟨"rfc4210.OOBCertHash", Verif.Rfc4210.OOBCertHash, Built.Rfc4210.OOBCertHash⟩,
    ⟨"rfc4210.NestedMessageContent", Verif.Rfc4210.NestedMessageContent, Built.Rfc4210.NestedMessageContent⟩,
    ⟨"rfc4210.DHBMParameter", Verif.Rfc4210.DHBMParameter, Std.Rfc4210.DHBMParameter⟩,
    ⟨"rfc4210.PBMParameter", Verif.Rfc4210.PBMParameter, Built.Rfc4210.PBMParameter⟩,
    ⟨"rfc4210.PKIProtection", Verif.Rfc4210.PKIProtection, Std.Rfc4210.PKIProtection⟩,
    ⟨"rfc4210.PKIBody", Verif.Rfc4210.PKIBody, Built.Rfc4210.PKIBody⟩,
    ⟨"rfc4210.PKIHeader", Verif.Rfc4210.PKIHeader, Built.Rfc4210.PKIHeader⟩,
    ⟨"rfc4210.ProtectedPart", Verif.Rfc4210.ProtectedPart, Built.Rfc4210.ProtectedPart⟩,
    ⟨"rfc4210.PKIMessage", Verif.Rfc4210.PKIMessage, Built.Rfc4210.PKIMessage⟩,
    ⟨"rfc4210.PKIMessages", Verif.Rfc4210.PKIMessages, Built.Rfc4210.PKIMessages⟩,
    ⟨"rfc4210.PollRepContent.CertReq", Verif.Rfc4210.PollRepContent_CertReq, Built.Rfc4210.PollRepContent_CertReq⟩,
    ⟨"rfc4210.PollReqContent.CertReq", Verif.Rfc4210.PollReqContent_CertReq, Built.Rfc4210.PollReqContent_CertReq⟩]⟩

end Rfc4210
end Built
end Verif
