import Verif.Spec.Grade
import Verif.Gen.Rfc4210
import Verif.Std.Rfc2986
import Verif.Std.Rfc3280
import Verif.Std.Rfc4211

/-! The ASN.1 of tools/std/rfc4210.asn1 (generated by tools/stdgen.py). -/

namespace Verif
namespace Std
namespace Rfc4210

open Asn1 Spec.X680

/-- `CMPCertificate ::=` -/
def CMPCertificate : Ty :=
  CHOICE [
    mandatory "x509v3PKCert" Std.Rfc3280.Certificate]

/-- `PKIFreeText ::=` -/
def PKIFreeText : Ty :=
  constrained (SIZE_MAX 1) (SEQUENCE_OF UTF8String)

/-- `InfoTypeAndValue ::=` -/
def InfoTypeAndValue : Ty :=
  SEQUENCE [
    mandatory "infoType" OBJECT_IDENTIFIER,
    optional "infoValue" ANY]

/-- `PKIHeader ::=` -/
def PKIHeader : Ty :=
  SEQUENCE [
    mandatory "pvno" (named [("cmp1999", 1), ("cmp2000", 2)] INTEGER),
    mandatory "sender" Std.Rfc3280.GeneralName,
    mandatory "recipient" Std.Rfc3280.GeneralName,
    optional "messageTime" (explicit .context 0 GeneralizedTime),
    optional "protectionAlg" (explicit .context 1 Std.Rfc3280.AlgorithmIdentifier),
    optional "senderKID" (explicit .context 2 Std.Rfc3280.KeyIdentifier),
    optional "recipKID" (explicit .context 3 Std.Rfc3280.KeyIdentifier),
    optional "transactionID" (explicit .context 4 OCTET_STRING),
    optional "senderNonce" (explicit .context 5 OCTET_STRING),
    optional "recipNonce" (explicit .context 6 OCTET_STRING),
    optional "freeText" (explicit .context 7 PKIFreeText),
    optional "generalInfo" (explicit .context 8 (constrained (SIZE_MAX 1) (SEQUENCE_OF InfoTypeAndValue)))]

/-- `PKIProtection ::=` -/
def PKIProtection : Ty :=
  BIT_STRING

/-- `PBMParameter ::=` -/
def PBMParameter : Ty :=
  SEQUENCE [
    mandatory "salt" OCTET_STRING,
    mandatory "owf" Std.Rfc3280.AlgorithmIdentifier,
    mandatory "iterationCount" INTEGER,
    mandatory "mac" Std.Rfc3280.AlgorithmIdentifier]

/-- `DHBMParameter ::=` -/
def DHBMParameter : Ty :=
  SEQUENCE [
    mandatory "owf" Std.Rfc3280.AlgorithmIdentifier,
    mandatory "mac" Std.Rfc3280.AlgorithmIdentifier]

/-- `PKIStatus ::=` -/
def PKIStatus : Ty :=
  named [("accepted", 0), ("grantedWithMods", 1), ("rejection", 2), ("waiting", 3), ("revocationWarning", 4), ("revocationNotification", 5), ("keyUpdateWarning", 6)] INTEGER

/-- `PKIFailureInfo ::=` -/
def PKIFailureInfo : Ty :=
  named [("badAlg", 0), ("badMessageCheck", 1), ("badRequest", 2), ("badTime", 3), ("badCertId", 4), ("badDataFormat", 5), ("wrongAuthority", 6), ("incorrectData", 7), ("missingTimeStamp", 8), ("badPOP", 9), ("certRevoked", 10), ("certConfirmed", 11), ("wrongIntegrity", 12), ("badRecipientNonce", 13), ("timeNotAvailable", 14), ("unacceptedPolicy", 15), ("unacceptedExtension", 16), ("addInfoNotAvailable", 17), ("badSenderNonce", 18), ("badCertTemplate", 19), ("signerNotTrusted", 20), ("transactionIdInUse", 21), ("unsupportedVersion", 22), ("notAuthorized", 23), ("systemUnavail", 24), ("systemFailure", 25), ("duplicateCertReq", 26)] BIT_STRING

/-- `PKIStatusInfo ::=` -/
def PKIStatusInfo : Ty :=
  SEQUENCE [
    mandatory "status" PKIStatus,
    optional "statusString" PKIFreeText,
    optional "failInfo" PKIFailureInfo]

/-- `OOBCert ::=` -/
def OOBCert : Ty :=
  CMPCertificate

/-- `OOBCertHash ::=` -/
def OOBCertHash : Ty :=
  SEQUENCE [
    optional "hashAlg" (explicit .context 0 Std.Rfc3280.AlgorithmIdentifier),
    optional "certId" (explicit .context 1 Std.Rfc4211.CertId),
    mandatory "hashVal" BIT_STRING]

/-- `Challenge ::=` -/
def Challenge : Ty :=
  SEQUENCE [
    optional "owf" Std.Rfc3280.AlgorithmIdentifier,
    mandatory "witness" OCTET_STRING,
    mandatory "challenge" OCTET_STRING]

/-- `POPODecKeyChallContent ::=` -/
def POPODecKeyChallContent : Ty :=
  SEQUENCE_OF Challenge

/-- `POPODecKeyRespContent ::=` -/
def POPODecKeyRespContent : Ty :=
  SEQUENCE_OF INTEGER

/-- `CertOrEncCert ::=` -/
def CertOrEncCert : Ty :=
  CHOICE [
    mandatory "certificate" (explicit .context 0 CMPCertificate),
    mandatory "encryptedCert" (explicit .context 1 Std.Rfc4211.EncryptedValue)]

/-- `CertifiedKeyPair ::=` -/
def CertifiedKeyPair : Ty :=
  SEQUENCE [
    mandatory "certOrEncCert" CertOrEncCert,
    optional "privateKey" (explicit .context 0 Std.Rfc4211.EncryptedValue),
    optional "publicationInfo" (explicit .context 1 Std.Rfc4211.PKIPublicationInfo)]

/-- `CertResponse ::=` -/
def CertResponse : Ty :=
  SEQUENCE [
    mandatory "certReqId" INTEGER,
    mandatory "status" PKIStatusInfo,
    optional "certifiedKeyPair" CertifiedKeyPair,
    optional "rspInfo" OCTET_STRING]

/-- `CertRepMessage ::=` -/
def CertRepMessage : Ty :=
  SEQUENCE [
    optional "caPubs" (explicit .context 1 (constrained (SIZE_MAX 1) (SEQUENCE_OF CMPCertificate))),
    mandatory "response" (SEQUENCE_OF CertResponse)]

/-- `KeyRecRepContent ::=` -/
def KeyRecRepContent : Ty :=
  SEQUENCE [
    mandatory "status" PKIStatusInfo,
    optional "newSigCert" (explicit .context 0 CMPCertificate),
    optional "caCerts" (explicit .context 1 (constrained (SIZE_MAX 1) (SEQUENCE_OF CMPCertificate))),
    optional "keyPairHist" (explicit .context 2 (constrained (SIZE_MAX 1) (SEQUENCE_OF CertifiedKeyPair)))]

/-- `RevDetails ::=` -/
def RevDetails : Ty :=
  SEQUENCE [
    mandatory "certDetails" Std.Rfc4211.CertTemplate,
    optional "crlEntryDetails" Std.Rfc3280.Extensions]

/-- `RevReqContent ::=` -/
def RevReqContent : Ty :=
  SEQUENCE_OF RevDetails

/-- `RevRepContent ::=` -/
def RevRepContent : Ty :=
  SEQUENCE [
    mandatory "status" (constrained (SIZE_MAX 1) (SEQUENCE_OF PKIStatusInfo)),
    optional "revCerts" (explicit .context 0 (constrained (SIZE_MAX 1) (SEQUENCE_OF Std.Rfc4211.CertId))),
    optional "crls" (explicit .context 1 (constrained (SIZE_MAX 1) (SEQUENCE_OF Std.Rfc3280.CertificateList)))]

/-- `CAKeyUpdAnnContent ::=` -/
def CAKeyUpdAnnContent : Ty :=
  SEQUENCE [
    mandatory "oldWithNew" CMPCertificate,
    mandatory "newWithOld" CMPCertificate,
    mandatory "newWithNew" CMPCertificate]

/-- `CertAnnContent ::=` -/
def CertAnnContent : Ty :=
  CMPCertificate

/-- `RevAnnContent ::=` -/
def RevAnnContent : Ty :=
  SEQUENCE [
    mandatory "status" PKIStatus,
    mandatory "certId" Std.Rfc4211.CertId,
    mandatory "willBeRevokedAt" GeneralizedTime,
    mandatory "badSinceDate" GeneralizedTime,
    optional "crlDetails" Std.Rfc3280.Extensions]

/-- `CRLAnnContent ::=` -/
def CRLAnnContent : Ty :=
  SEQUENCE_OF Std.Rfc3280.CertificateList

/-- `CertStatus ::=` -/
def CertStatus : Ty :=
  SEQUENCE [
    mandatory "certHash" OCTET_STRING,
    mandatory "certReqId" INTEGER,
    optional "statusInfo" PKIStatusInfo]

/-- `CertConfirmContent ::=` -/
def CertConfirmContent : Ty :=
  SEQUENCE_OF CertStatus

/-- `PKIConfirmContent ::=` -/
def PKIConfirmContent : Ty :=
  NULL

/-- `GenMsgContent ::=` -/
def GenMsgContent : Ty :=
  SEQUENCE_OF InfoTypeAndValue

/-- `GenRepContent ::=` -/
def GenRepContent : Ty :=
  SEQUENCE_OF InfoTypeAndValue

/-- `ErrorMsgContent ::=` -/
def ErrorMsgContent : Ty :=
  SEQUENCE [
    mandatory "pKIStatusInfo" PKIStatusInfo,
    optional "errorCode" INTEGER,
    optional "errorDetails" PKIFreeText]

/-- `PollReqContent ::=` -/
def PollReqContent : Ty :=
  SEQUENCE_OF (SEQUENCE [
    mandatory "certReqId" INTEGER])

/-- `PollRepContent ::=` -/
def PollRepContent : Ty :=
  SEQUENCE_OF (SEQUENCE [
    mandatory "certReqId" INTEGER,
    mandatory "checkAfter" INTEGER,
    optional "reason" PKIFreeText])

/-- `PKIBody ::=` -/
def PKIBody : Ty :=
  CHOICE [
    mandatory "ir" (explicit .context 0 Std.Rfc4211.CertReqMessages),
    mandatory "ip" (explicit .context 1 CertRepMessage),
    mandatory "cr" (explicit .context 2 Std.Rfc4211.CertReqMessages),
    mandatory "cp" (explicit .context 3 CertRepMessage),
    mandatory "p10cr" (explicit .context 4 Std.Rfc2986.CertificationRequest),
    mandatory "popdecc" (explicit .context 5 POPODecKeyChallContent),
    mandatory "popdecr" (explicit .context 6 POPODecKeyRespContent),
    mandatory "kur" (explicit .context 7 Std.Rfc4211.CertReqMessages),
    mandatory "kup" (explicit .context 8 CertRepMessage),
    mandatory "krr" (explicit .context 9 Std.Rfc4211.CertReqMessages),
    mandatory "krp" (explicit .context 10 KeyRecRepContent),
    mandatory "rr" (explicit .context 11 RevReqContent),
    mandatory "rp" (explicit .context 12 RevRepContent),
    mandatory "ccr" (explicit .context 13 Std.Rfc4211.CertReqMessages),
    mandatory "ccp" (explicit .context 14 CertRepMessage),
    mandatory "ckuann" (explicit .context 15 CAKeyUpdAnnContent),
    mandatory "cann" (explicit .context 16 CertAnnContent),
    mandatory "rann" (explicit .context 17 RevAnnContent),
    mandatory "crlann" (explicit .context 18 CRLAnnContent),
    mandatory "pkiconf" (explicit .context 19 PKIConfirmContent),
    mandatory "nested" (explicit .context 20 Verif.Rfc4210.NestedMessageContent.call.ty),
    mandatory "genm" (explicit .context 21 GenMsgContent),
    mandatory "genp" (explicit .context 22 GenRepContent),
    mandatory "error" (explicit .context 23 ErrorMsgContent),
    mandatory "certConf" (explicit .context 24 CertConfirmContent),
    mandatory "pollReq" (explicit .context 25 PollReqContent),
    mandatory "pollRep" (explicit .context 26 PollRepContent)]

/-- `ProtectedPart ::=` -/
def ProtectedPart : Ty :=
  SEQUENCE [
    mandatory "header" PKIHeader,
    mandatory "body" PKIBody]

/-- `PKIMessage ::=` -/
def PKIMessage : Ty :=
  SEQUENCE [
    mandatory "header" PKIHeader,
    mandatory "body" PKIBody,
    optional "protection" (explicit .context 0 PKIProtection),
    optional "extraCerts" (explicit .context 1 (constrained (SIZE_MAX 1) (SEQUENCE_OF CMPCertificate)))]

/-- `PKIMessages ::=` -/
def PKIMessages : Ty :=
  constrained (SIZE_MAX 1) (SEQUENCE_OF PKIMessage)

/-- Classes of rfc4210.py and the types of the standard they implement. -/
def entries : List Entry :=
  [⟨"rfc4210.KeyIdentifier", Verif.Rfc4210.KeyIdentifier, Std.Rfc3280.KeyIdentifier, .same, false⟩,
   ⟨"rfc4210.CMPCertificate", Verif.Rfc4210.CMPCertificate, CMPCertificate, (.changed [48, 64, 48, 54, 2, 1, 0, 48, 3, 6, 1, 43, 48, 0, 48, 30, 23, 13, 55, 48, 48, 49, 48, 49, 48, 48, 48, 48, 48, 48, 90, 23, 13, 55, 48, 48, 49, 48, 49, 48, 48, 48, 48, 48, 48, 90, 48, 0, 48, 8, 48, 3, 6, 1, 43, 3, 1, 0, 48, 3, 6, 1, 43, 3, 1, 0]), true⟩,
   ⟨"rfc4210.OOBCert", Verif.Rfc4210.OOBCert, OOBCert, (.changed [48, 64, 48, 54, 2, 1, 0, 48, 3, 6, 1, 43, 48, 0, 48, 30, 23, 13, 55, 48, 48, 49, 48, 49, 48, 48, 48, 48, 48, 48, 90, 23, 13, 55, 48, 48, 49, 48, 49, 48, 48, 48, 48, 48, 48, 90, 48, 0, 48, 8, 48, 3, 6, 1, 43, 3, 1, 0, 48, 3, 6, 1, 43, 3, 1, 0]), true⟩,
   ⟨"rfc4210.CertAnnContent", Verif.Rfc4210.CertAnnContent, CertAnnContent, (.changed [48, 64, 48, 54, 2, 1, 0, 48, 3, 6, 1, 43, 48, 0, 48, 30, 23, 13, 55, 48, 48, 49, 48, 49, 48, 48, 48, 48, 48, 48, 90, 23, 13, 55, 48, 48, 49, 48, 49, 48, 48, 48, 48, 48, 48, 90, 48, 0, 48, 8, 48, 3, 6, 1, 43, 3, 1, 0, 48, 3, 6, 1, 43, 3, 1, 0]), true⟩,
   ⟨"rfc4210.PKIFreeText", Verif.Rfc4210.PKIFreeText, PKIFreeText, .same, false⟩,
   ⟨"rfc4210.PollRepContent", Verif.Rfc4210.PollRepContent, PollRepContent, .same, false⟩,
   ⟨"rfc4210.PollReqContent", Verif.Rfc4210.PollReqContent, PollReqContent, .same, false⟩,
   ⟨"rfc4210.InfoTypeAndValue", Verif.Rfc4210.InfoTypeAndValue, InfoTypeAndValue, .same, false⟩,
   ⟨"rfc4210.GenRepContent", Verif.Rfc4210.GenRepContent, GenRepContent, .same, false⟩,
   ⟨"rfc4210.GenMsgContent", Verif.Rfc4210.GenMsgContent, GenMsgContent, .same, false⟩,
   ⟨"rfc4210.PKIConfirmContent", Verif.Rfc4210.PKIConfirmContent, PKIConfirmContent, .same, false⟩,
   ⟨"rfc4210.CRLAnnContent", Verif.Rfc4210.CRLAnnContent, CRLAnnContent, .relaxed, true⟩,
   ⟨"rfc4210.CAKeyUpdAnnContent", Verif.Rfc4210.CAKeyUpdAnnContent, CAKeyUpdAnnContent, (.changed [48, 129, 198, 48, 64, 48, 54, 2, 1, 0, 48, 3, 6, 1, 43, 48, 0, 48, 30, 23, 13, 55, 48, 48, 49, 48, 49, 48, 48, 48, 48, 48, 48, 90, 23, 13, 55, 48, 48, 49, 48, 49, 48, 48, 48, 48, 48, 48, 90, 48, 0, 48, 8, 48, 3, 6, 1, 43, 3, 1, 0, 48, 3, 6, 1, 43, 3, 1, 0, 48, 64, 48, 54, 2, 1, 0, 48, 3, 6, 1, 43, 48, 0, 48, 30, 23, 13, 55, 48, 48, 49, 48, 49, 48, 48, 48, 48, 48, 48, 90, 23, 13, 55, 48, 48, 49, 48, 49, 48, 48, 48, 48, 48, 48, 90, 48, 0, 48, 8, 48, 3, 6, 1, 43, 3, 1, 0, 48, 3, 6, 1, 43, 3, 1, 0, 48, 64, 48, 54, 2, 1, 0, 48, 3, 6, 1, 43, 48, 0, 48, 30, 23, 13, 55, 48, 48, 49, 48, 49, 48, 48, 48, 48, 48, 48, 90, 23, 13, 55, 48, 48, 49, 48, 49, 48, 48, 48, 48, 48, 48, 90, 48, 0, 48, 8, 48, 3, 6, 1, 43, 3, 1, 0, 48, 3, 6, 1, 43, 3, 1, 0]), true⟩,
   ⟨"rfc4210.RevDetails", Verif.Rfc4210.RevDetails, RevDetails, .relaxed, true⟩,
   ⟨"rfc4210.RevReqContent", Verif.Rfc4210.RevReqContent, RevReqContent, .relaxed, true⟩,
   ⟨"rfc4210.CertOrEncCert", Verif.Rfc4210.CertOrEncCert, CertOrEncCert, (.changed [160, 66, 48, 64, 48, 54, 2, 1, 0, 48, 3, 6, 1, 43, 48, 0, 48, 30, 23, 13, 55, 48, 48, 49, 48, 49, 48, 48, 48, 48, 48, 48, 90, 23, 13, 55, 48, 48, 49, 48, 49, 48, 48, 48, 48, 48, 48, 90, 48, 0, 48, 8, 48, 3, 6, 1, 43, 3, 1, 0, 48, 3, 6, 1, 43, 3, 1, 0]), true⟩,
   ⟨"rfc4210.CertifiedKeyPair", Verif.Rfc4210.CertifiedKeyPair, CertifiedKeyPair, (.refused [48, 84, 160, 66, 48, 64, 48, 54, 2, 1, 0, 48, 3, 6, 1, 43, 48, 0, 48, 30, 23, 13, 55, 48, 48, 49, 48, 49, 48, 48, 48, 48, 48, 48, 90, 23, 13, 55, 48, 48, 49, 48, 49, 48, 48, 48, 48, 48, 48, 90, 48, 0, 48, 8, 48, 3, 6, 1, 43, 3, 1, 0, 48, 3, 6, 1, 43, 3, 1, 0, 161, 14, 48, 12, 2, 1, 0, 48, 7, 48, 5, 2, 1, 0, 134, 0]), true⟩,
   ⟨"rfc4210.POPODecKeyRespContent", Verif.Rfc4210.POPODecKeyRespContent, POPODecKeyRespContent, .same, false⟩,
   ⟨"rfc4210.Challenge", Verif.Rfc4210.Challenge, Challenge, .same, false⟩,
   ⟨"rfc4210.PKIStatus", Verif.Rfc4210.PKIStatus, PKIStatus, .same, false⟩,
   ⟨"rfc4210.PKIFailureInfo", Verif.Rfc4210.PKIFailureInfo, PKIFailureInfo, .same, false⟩,
   ⟨"rfc4210.PKIStatusInfo", Verif.Rfc4210.PKIStatusInfo, PKIStatusInfo, .same, false⟩,
   ⟨"rfc4210.ErrorMsgContent", Verif.Rfc4210.ErrorMsgContent, ErrorMsgContent, .same, false⟩,
   ⟨"rfc4210.CertStatus", Verif.Rfc4210.CertStatus, CertStatus, .same, false⟩,
   ⟨"rfc4210.CertConfirmContent", Verif.Rfc4210.CertConfirmContent, CertConfirmContent, .same, false⟩,
   ⟨"rfc4210.RevAnnContent", Verif.Rfc4210.RevAnnContent, RevAnnContent, (.refused [48, 44, 2, 1, 0, 48, 5, 129, 0, 2, 1, 0, 24, 15, 49, 57, 55, 48, 48, 49, 48, 49, 48, 48, 48, 48, 48, 48, 90, 24, 15, 49, 57, 55, 48, 48, 49, 48, 49, 48, 48, 48, 48, 48, 48, 90]), true⟩,
   ⟨"rfc4210.RevRepContent", Verif.Rfc4210.RevRepContent, RevRepContent, (.refused [48, 18, 48, 5, 48, 3, 2, 1, 0, 160, 9, 48, 7, 48, 5, 134, 0, 2, 1, 0]), true⟩,
   ⟨"rfc4210.KeyRecRepContent", Verif.Rfc4210.KeyRecRepContent, KeyRecRepContent, (.refused [48, 95, 48, 3, 2, 1, 0, 162, 88, 48, 86, 48, 84, 160, 66, 48, 64, 48, 54, 2, 1, 0, 48, 3, 6, 1, 43, 48, 0, 48, 30, 23, 13, 55, 48, 48, 49, 48, 49, 48, 48, 48, 48, 48, 48, 90, 23, 13, 55, 48, 48, 49, 48, 49, 48, 48, 48, 48, 48, 48, 90, 48, 0, 48, 8, 48, 3, 6, 1, 43, 3, 1, 0, 48, 3, 6, 1, 43, 3, 1, 0, 161, 14, 48, 12, 2, 1, 0, 48, 7, 48, 5, 2, 1, 0, 135, 0]), true⟩,
   ⟨"rfc4210.CertResponse", Verif.Rfc4210.CertResponse, CertResponse, (.refused [48, 94, 2, 1, 0, 48, 3, 2, 1, 0, 48, 84, 160, 66, 48, 64, 48, 54, 2, 1, 0, 48, 3, 6, 1, 43, 48, 0, 48, 30, 23, 13, 55, 48, 48, 49, 48, 49, 48, 48, 48, 48, 48, 48, 90, 23, 13, 55, 48, 48, 49, 48, 49, 48, 48, 48, 48, 48, 48, 90, 48, 0, 48, 8, 48, 3, 6, 1, 43, 3, 1, 0, 48, 3, 6, 1, 43, 3, 1, 0, 161, 14, 48, 12, 2, 1, 0, 48, 7, 48, 5, 2, 1, 0, 135, 0]), true⟩,
   ⟨"rfc4210.CertRepMessage", Verif.Rfc4210.CertRepMessage, CertRepMessage, (.refused [48, 98, 48, 96, 48, 94, 2, 1, 0, 48, 3, 2, 1, 0, 48, 84, 160, 66, 48, 64, 48, 54, 2, 1, 0, 48, 3, 6, 1, 43, 48, 0, 48, 30, 23, 13, 55, 48, 48, 49, 48, 49, 48, 48, 48, 48, 48, 48, 90, 23, 13, 55, 48, 48, 49, 48, 49, 48, 48, 48, 48, 48, 48, 90, 48, 0, 48, 8, 48, 3, 6, 1, 43, 3, 1, 0, 48, 3, 6, 1, 43, 3, 1, 0, 161, 14, 48, 12, 2, 1, 0, 48, 7, 48, 5, 2, 1, 0, 135, 0]), true⟩,
   ⟨"rfc4210.POPODecKeyChallContent", Verif.Rfc4210.POPODecKeyChallContent, POPODecKeyChallContent, .same, false⟩,
   ⟨"rfc4210.OOBCertHash", Verif.Rfc4210.OOBCertHash, OOBCertHash, (.refused [48, 12, 161, 7, 48, 5, 129, 0, 2, 1, 0, 3, 1, 0]), true⟩,
   ⟨"rfc4210.DHBMParameter", Verif.Rfc4210.DHBMParameter, DHBMParameter, .same, false⟩,
   ⟨"rfc4210.PBMParameter", Verif.Rfc4210.PBMParameter, PBMParameter, (.refused [48, 129, 216, 4, 129, 200, 0, 0, 0, 0, 0, 0, 0, 0, 0, 0, 0, 0, 0, 0, 0, 0, 0, 0, 0, 0, 0, 0, 0, 0, 0, 0, 0, 0, 0, 0, 0, 0, 0, 0, 0, 0, 0, 0, 0, 0, 0, 0, 0, 0, 0, 0, 0, 0, 0, 0, 0, 0, 0, 0, 0, 0, 0, 0, 0, 0, 0, 0, 0, 0, 0, 0, 0, 0, 0, 0, 0, 0, 0, 0, 0, 0, 0, 0, 0, 0, 0, 0, 0, 0, 0, 0, 0, 0, 0, 0, 0, 0, 0, 0, 0, 0, 0, 0, 0, 0, 0, 0, 0, 0, 0, 0, 0, 0, 0, 0, 0, 0, 0, 0, 0, 0, 0, 0, 0, 0, 0, 0, 0, 0, 0, 0, 0, 0, 0, 0, 0, 0, 0, 0, 0, 0, 0, 0, 0, 0, 0, 0, 0, 0, 0, 0, 0, 0, 0, 0, 0, 0, 0, 0, 0, 0, 0, 0, 0, 0, 0, 0, 0, 0, 0, 0, 0, 0, 0, 0, 0, 0, 0, 0, 0, 0, 0, 0, 0, 0, 0, 0, 0, 0, 0, 0, 0, 0, 0, 0, 0, 0, 0, 0, 0, 0, 0, 0, 0, 0, 48, 3, 6, 1, 43, 2, 1, 0, 48, 3, 6, 1, 43]), false⟩,
   ⟨"rfc4210.PKIProtection", Verif.Rfc4210.PKIProtection, PKIProtection, .same, false⟩,
   ⟨"rfc4210.PKIBody", Verif.Rfc4210.PKIBody, PKIBody, (.refused [172, 20, 48, 18, 48, 5, 48, 3, 2, 1, 0, 160, 9, 48, 7, 48, 5, 134, 0, 2, 1, 0]), true⟩,
   ⟨"rfc4210.PKIHeader", Verif.Rfc4210.PKIHeader, PKIHeader, (.refused [48, 19, 2, 1, 0, 163, 5, 48, 3, 128, 1, 48, 160, 7, 6, 1, 43, 160, 2, 5, 0]), true⟩,
   ⟨"rfc4210.ProtectedPart", Verif.Rfc4210.ProtectedPart, ProtectedPart, (.refused [48, 34, 48, 19, 2, 1, 0, 163, 5, 48, 3, 131, 1, 48, 160, 7, 6, 1, 43, 160, 2, 5, 0, 160, 11, 48, 9, 48, 7, 48, 5, 2, 1, 0, 48, 0]), true⟩,
   ⟨"rfc4210.PKIMessage", Verif.Rfc4210.PKIMessage, PKIMessage, (.refused [48, 34, 48, 19, 2, 1, 0, 163, 5, 48, 3, 131, 1, 48, 160, 7, 6, 1, 43, 160, 2, 5, 0, 160, 11, 48, 9, 48, 7, 48, 5, 2, 1, 0, 48, 0]), true⟩,
   ⟨"rfc4210.PKIMessages", Verif.Rfc4210.PKIMessages, PKIMessages, (.refused [48, 38, 48, 36, 48, 21, 2, 1, 0, 163, 7, 48, 5, 165, 3, 128, 1, 48, 160, 7, 6, 1, 43, 160, 2, 5, 0, 160, 11, 48, 9, 48, 7, 48, 5, 2, 1, 0, 48, 0]), true⟩]

/-- Classes of rfc4210.py the transcription of the standard has no type for. -/
def beyond : List String :=
  ["rfc4210.NestedMessageContent",
   "rfc4210.PollRepContent.CertReq",
   "rfc4210.PollReqContent.CertReq"]

/-- Constants of rfc4210.py and the values the standard gives them. -/
def constants : List Constant :=
  [⟨"rfc4210.id_DHBasedMac", Verif.Rfc4210.id_DHBasedMac, OBJECT_IDENTIFIER, .oid [1, 2, 840, 113533, 7, 66, 30], true⟩,
   ⟨"rfc4210.id_PasswordBasedMac", Verif.Rfc4210.id_PasswordBasedMac, OBJECT_IDENTIFIER, .oid [1, 2, 840, 113533, 7, 66, 13], true⟩]

/-- Constants of rfc4210.py the transcription of the standard has no value for. -/
def others : List String :=
  ["rfc4210.nestedMessageContent"]

def standard : Standard := ⟨Verif.Rfc4210.asModule, entries, beyond, constants, others⟩

end Rfc4210
end Std
end Verif
