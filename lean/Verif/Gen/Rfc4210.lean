import Verif.Py.Obj
import Verif.Gen.Rfc2314
import Verif.Gen.Rfc2459
import Verif.Gen.Rfc2511

/-! Transcription of /repo/pyasn1_modules/rfc4210.py (generated by tools/gen.py). -/

namespace Verif
namespace Rfc4210

/-- rfc4210.py:23 -/
def MAX : Py.Bound :=
  .inf

/-- rfc4210.py:26-27 `class KeyIdentifier(univ.OctetString)` -/
def KeyIdentifier : Py.Obj :=
  Py.univ.OctetString

/-- rfc4210.py:30-31 `class CMPCertificate(rfc2459.Certificate)` -/
def CMPCertificate : Py.Obj :=
  Rfc2459.Certificate

/-- rfc4210.py:34-35 `class OOBCert(CMPCertificate)` -/
def OOBCert : Py.Obj :=
  Rfc4210.CMPCertificate

/-- rfc4210.py:38-39 `class CertAnnContent(CMPCertificate)` -/
def CertAnnContent : Py.Obj :=
  Rfc4210.CMPCertificate

/-- rfc4210.py:42-47 `class PKIFreeText(univ.SequenceOf)` -/
def PKIFreeText : Py.Obj :=
  (Py.univ.SequenceOf.setComponentTypeOf Py.char.UTF8String.call).setSizeSpec (Py.univ.SequenceOf.sizeSpec.add (Py.ValueSizeConstraint (.fin 1) Rfc4210.MAX))

/-- rfc4210.py:59-64 `class CertReq(univ.Sequence)` -/
def PollRepContent_CertReq : Py.Obj :=
  Py.univ.Sequence.setComponentType (Py.NamedTypes [
    Py.NamedType "certReqId" Py.univ.Integer.call,
    Py.NamedType "checkAfter" Py.univ.Integer.call,
    Py.OptionalNamedType "reason" Rfc4210.PKIFreeText.call])

/-- rfc4210.py:50-66 `class PollRepContent(univ.SequenceOf)` -/
def PollRepContent : Py.Obj :=
  Py.univ.SequenceOf.setComponentTypeOf Rfc4210.PollRepContent_CertReq.call

/-- rfc4210.py:77-80 `class CertReq(univ.Sequence)` -/
def PollReqContent_CertReq : Py.Obj :=
  Py.univ.Sequence.setComponentType (Py.NamedTypes [
    Py.NamedType "certReqId" Py.univ.Integer.call])

/-- rfc4210.py:69-82 `class PollReqContent(univ.SequenceOf)` -/
def PollReqContent : Py.Obj :=
  Py.univ.SequenceOf.setComponentTypeOf Rfc4210.PollReqContent_CertReq.call

/-- rfc4210.py:85-94 `class InfoTypeAndValue(univ.Sequence)` -/
def InfoTypeAndValue : Py.Obj :=
  Py.univ.Sequence.setComponentType (Py.NamedTypes [
    Py.NamedType "infoType" Py.univ.ObjectIdentifier.call,
    Py.OptionalNamedType "infoValue" Py.univ.Any.call])

/-- rfc4210.py:97-98 `class GenRepContent(univ.SequenceOf)` -/
def GenRepContent : Py.Obj :=
  Py.univ.SequenceOf.setComponentTypeOf Rfc4210.InfoTypeAndValue.call

/-- rfc4210.py:101-102 `class GenMsgContent(univ.SequenceOf)` -/
def GenMsgContent : Py.Obj :=
  Py.univ.SequenceOf.setComponentTypeOf Rfc4210.InfoTypeAndValue.call

/-- rfc4210.py:105-106 `class PKIConfirmContent(univ.Null)` -/
def PKIConfirmContent : Py.Obj :=
  Py.univ.Null

/-- rfc4210.py:109-110 `class CRLAnnContent(univ.SequenceOf)` -/
def CRLAnnContent : Py.Obj :=
  Py.univ.SequenceOf.setComponentTypeOf Rfc2459.CertificateList.call

/-- rfc4210.py:113-125 `class CAKeyUpdAnnContent(univ.Sequence)` -/
def CAKeyUpdAnnContent : Py.Obj :=
  Py.univ.Sequence.setComponentType (Py.NamedTypes [
    Py.NamedType "oldWithNew" Rfc4210.CMPCertificate.call,
    Py.NamedType "newWithOld" Rfc4210.CMPCertificate.call,
    Py.NamedType "newWithNew" Rfc4210.CMPCertificate.call])

/-- rfc4210.py:128-138 `class RevDetails(univ.Sequence)` -/
def RevDetails : Py.Obj :=
  Py.univ.Sequence.setComponentType (Py.NamedTypes [
    Py.NamedType "certDetails" Rfc2511.CertTemplate.call,
    Py.OptionalNamedType "crlEntryDetails" Rfc2459.Extensions.call])

/-- rfc4210.py:141-142 `class RevReqContent(univ.SequenceOf)` -/
def RevReqContent : Py.Obj :=
  Py.univ.SequenceOf.setComponentTypeOf Rfc4210.RevDetails.call

/-- rfc4210.py:145-155 `class CertOrEncCert(univ.Choice)` -/
def CertOrEncCert : Py.Obj :=
  Py.univ.Choice.setComponentType (Py.NamedTypes [
    Py.NamedType "certificate" (Rfc4210.CMPCertificate.call.explicitTag (Py.Tag .context true 0)),
    Py.NamedType "encryptedCert" (Rfc2511.EncryptedValue.call.explicitTag (Py.Tag .context true 1))])

/-- rfc4210.py:158-170 `class CertifiedKeyPair(univ.Sequence)` -/
def CertifiedKeyPair : Py.Obj :=
  Py.univ.Sequence.setComponentType (Py.NamedTypes [
    Py.NamedType "certOrEncCert" Rfc4210.CertOrEncCert.call,
    Py.OptionalNamedType "privateKey" (Rfc2511.EncryptedValue.call.explicitTag (Py.Tag .context true 0)),
    Py.OptionalNamedType "publicationInfo" (Rfc2511.PKIPublicationInfo.call.explicitTag (Py.Tag .context true 1))])

/-- rfc4210.py:173-174 `class POPODecKeyRespContent(univ.SequenceOf)` -/
def POPODecKeyRespContent : Py.Obj :=
  Py.univ.SequenceOf.setComponentTypeOf Py.univ.Integer.call

/-- rfc4210.py:177-189 `class Challenge(univ.Sequence)` -/
def Challenge : Py.Obj :=
  Py.univ.Sequence.setComponentType (Py.NamedTypes [
    Py.OptionalNamedType "owf" Rfc2459.AlgorithmIdentifier.call,
    Py.NamedType "witness" Py.univ.OctetString.call,
    Py.NamedType "challenge" Py.univ.OctetString.call])

/-- rfc4210.py:192-212 `class PKIStatus(univ.Integer)` -/
def PKIStatus : Py.Obj :=
  Py.univ.Integer.setNamedValues (Py.NamedValues [("accepted", 0), ("grantedWithMods", 1), ("rejection", 2), ("waiting", 3), ("revocationWarning", 4), ("revocationNotification", 5), ("keyUpdateWarning", 6)])

/-- rfc4210.py:215-274 `class PKIFailureInfo(univ.BitString)` -/
def PKIFailureInfo : Py.Obj :=
  Py.univ.BitString.setNamedValues (Py.NamedValues [("badAlg", 0), ("badMessageCheck", 1), ("badRequest", 2), ("badTime", 3), ("badCertId", 4), ("badDataFormat", 5), ("wrongAuthority", 6), ("incorrectData", 7), ("missingTimeStamp", 8), ("badPOP", 9), ("certRevoked", 10), ("certConfirmed", 11), ("wrongIntegrity", 12), ("badRecipientNonce", 13), ("timeNotAvailable", 14), ("unacceptedPolicy", 15), ("unacceptedExtension", 16), ("addInfoNotAvailable", 17), ("badSenderNonce", 18), ("badCertTemplate", 19), ("signerNotTrusted", 20), ("transactionIdInUse", 21), ("unsupportedVersion", 22), ("notAuthorized", 23), ("systemUnavail", 24), ("systemFailure", 25), ("duplicateCertReq", 26)])

/-- rfc4210.py:277-289 `class PKIStatusInfo(univ.Sequence)` -/
def PKIStatusInfo : Py.Obj :=
  Py.univ.Sequence.setComponentType (Py.NamedTypes [
    Py.NamedType "status" Rfc4210.PKIStatus.call,
    Py.OptionalNamedType "statusString" Rfc4210.PKIFreeText.call,
    Py.OptionalNamedType "failInfo" Rfc4210.PKIFailureInfo.call])

/-- rfc4210.py:292-306 `class ErrorMsgContent(univ.Sequence)` -/
def ErrorMsgContent : Py.Obj :=
  Py.univ.Sequence.setComponentType (Py.NamedTypes [
    Py.NamedType "pKIStatusInfo" Rfc4210.PKIStatusInfo.call,
    Py.OptionalNamedType "errorCode" Py.univ.Integer.call,
    Py.OptionalNamedType "errorDetails" Rfc4210.PKIFreeText.call])

/-- rfc4210.py:309-321 `class CertStatus(univ.Sequence)` -/
def CertStatus : Py.Obj :=
  Py.univ.Sequence.setComponentType (Py.NamedTypes [
    Py.NamedType "certHash" Py.univ.OctetString.call,
    Py.NamedType "certReqId" Py.univ.Integer.call,
    Py.OptionalNamedType "statusInfo" Rfc4210.PKIStatusInfo.call])

/-- rfc4210.py:324-325 `class CertConfirmContent(univ.SequenceOf)` -/
def CertConfirmContent : Py.Obj :=
  Py.univ.SequenceOf.setComponentTypeOf Rfc4210.CertStatus.call

/-- rfc4210.py:328-344 `class RevAnnContent(univ.Sequence)` -/
def RevAnnContent : Py.Obj :=
  Py.univ.Sequence.setComponentType (Py.NamedTypes [
    Py.NamedType "status" Rfc4210.PKIStatus.call,
    Py.NamedType "certId" Rfc2511.CertId.call,
    Py.NamedType "willBeRevokedAt" Py.useful.GeneralizedTime.call,
    Py.NamedType "badSinceDate" Py.useful.GeneralizedTime.call,
    Py.OptionalNamedType "crlDetails" Rfc2459.Extensions.call])

/-- rfc4210.py:347-375 `class RevRepContent(univ.Sequence)` -/
def RevRepContent : Py.Obj :=
  Py.univ.Sequence.setComponentType (Py.NamedTypes [
    Py.NamedType "status" ((Py.univ.SequenceOf.call.setComponentTypeOf Rfc4210.PKIStatusInfo.call).withSizeSpec (Py.ValueSizeConstraint (.fin 1) Rfc4210.MAX)),
    Py.OptionalNamedType "revCerts" (((Py.univ.SequenceOf.call.setComponentTypeOf Rfc2511.CertId.call).explicitTag (Py.Tag .context true 0)).addSizeSpec (Py.ValueSizeConstraint (.fin 1) Rfc4210.MAX)),
    Py.OptionalNamedType "crls" (((Py.univ.SequenceOf.call.setComponentTypeOf Rfc2459.CertificateList.call).explicitTag (Py.Tag .context true 1)).addSizeSpec (Py.ValueSizeConstraint (.fin 1) Rfc4210.MAX))])

/-- rfc4210.py:378-406 `class KeyRecRepContent(univ.Sequence)` -/
def KeyRecRepContent : Py.Obj :=
  Py.univ.Sequence.setComponentType (Py.NamedTypes [
    Py.NamedType "status" Rfc4210.PKIStatusInfo.call,
    Py.OptionalNamedType "newSigCert" (Rfc4210.CMPCertificate.call.explicitTag (Py.Tag .context true 0)),
    Py.OptionalNamedType "caCerts" (((Py.univ.SequenceOf.call.setComponentTypeOf Rfc4210.CMPCertificate.call).explicitTag (Py.Tag .context true 1)).addSizeSpec (Py.ValueSizeConstraint (.fin 1) Rfc4210.MAX)),
    Py.OptionalNamedType "keyPairHist" (((Py.univ.SequenceOf.call.setComponentTypeOf Rfc4210.CertifiedKeyPair.call).explicitTag (Py.Tag .context true 2)).addSizeSpec (Py.ValueSizeConstraint (.fin 1) Rfc4210.MAX))])

/-- rfc4210.py:409-423 `class CertResponse(univ.Sequence)` -/
def CertResponse : Py.Obj :=
  Py.univ.Sequence.setComponentType (Py.NamedTypes [
    Py.NamedType "certReqId" Py.univ.Integer.call,
    Py.NamedType "status" Rfc4210.PKIStatusInfo.call,
    Py.OptionalNamedType "certifiedKeyPair" Rfc4210.CertifiedKeyPair.call,
    Py.OptionalNamedType "rspInfo" Py.univ.OctetString.call])

/-- rfc4210.py:426-442 `class CertRepMessage(univ.Sequence)` -/
def CertRepMessage : Py.Obj :=
  Py.univ.Sequence.setComponentType (Py.NamedTypes [
    Py.OptionalNamedType "caPubs" (((Py.univ.SequenceOf.call.setComponentTypeOf Rfc4210.CMPCertificate.call).explicitTag (Py.Tag .context true 1)).addSizeSpec (Py.ValueSizeConstraint (.fin 1) Rfc4210.MAX)),
    Py.NamedType "response" (Py.univ.SequenceOf.call.setComponentTypeOf Rfc4210.CertResponse.call)])

/-- rfc4210.py:445-446 `class POPODecKeyChallContent(univ.SequenceOf)` -/
def POPODecKeyChallContent : Py.Obj :=
  Py.univ.SequenceOf.setComponentTypeOf Rfc4210.Challenge.call

/-- rfc4210.py:449-465 `class OOBCertHash(univ.Sequence)` -/
def OOBCertHash : Py.Obj :=
  Py.univ.Sequence.setComponentType (Py.NamedTypes [
    Py.OptionalNamedType "hashAlg" (Rfc2459.AlgorithmIdentifier.call.explicitTag (Py.Tag .context true 0)),
    Py.OptionalNamedType "certId" (Rfc2511.CertId.call.explicitTag (Py.Tag .context true 1)),
    Py.NamedType "hashVal" Py.univ.BitString.call])

/-- rfc4210.py:470-474 `class NestedMessageContent(univ.SequenceOf)` -/
def NestedMessageContent : Py.Obj :=
  Py.univ.SequenceOf.setComponentTypeOf Py.univ.Any.call

/-- rfc4210.py:477-489 `class DHBMParameter(univ.Sequence)` -/
def DHBMParameter : Py.Obj :=
  Py.univ.Sequence.setComponentType (Py.NamedTypes [
    Py.NamedType "owf" Rfc2459.AlgorithmIdentifier.call,
    Py.NamedType "mac" Rfc2459.AlgorithmIdentifier.call])

/-- rfc4210.py:492 -/
def id_DHBasedMac : Py.Obj :=
  (Py.univ.ObjectIdentifier.call.callArcs [1, 2, 840, 113533, 7, 66, 30])

/-- rfc4210.py:495-511 `class PBMParameter(univ.Sequence)` -/
def PBMParameter : Py.Obj :=
  Py.univ.Sequence.setComponentType (Py.NamedTypes [
    Py.NamedType "salt" (Py.univ.OctetString.call.addSubtypeSpec (Py.ValueSizeConstraint (.fin 0) (.fin 128))),
    Py.NamedType "owf" Rfc2459.AlgorithmIdentifier.call,
    Py.NamedType "iterationCount" Py.univ.Integer.call,
    Py.NamedType "mac" Rfc2459.AlgorithmIdentifier.call])

/-- rfc4210.py:514 -/
def id_PasswordBasedMac : Py.Obj :=
  (Py.univ.ObjectIdentifier.call.callArcs [1, 2, 840, 113533, 7, 66, 13])

/-- rfc4210.py:517-518 `class PKIProtection(univ.BitString)` -/
def PKIProtection : Py.Obj :=
  Py.univ.BitString

/-- rfc4210.py:523-524 -/
def nestedMessageContent : Py.Obj :=
  (Rfc4210.NestedMessageContent.call.explicitTag (Py.Tag .context true 20))

/-- rfc4210.py:527-697 `class PKIBody(univ.Choice)` -/
def PKIBody : Py.Obj :=
  Py.univ.Choice.setComponentType (Py.NamedTypes [
    Py.NamedType "ir" (Rfc2511.CertReqMessages.call.explicitTag (Py.Tag .context true 0)),
    Py.NamedType "ip" (Rfc4210.CertRepMessage.call.explicitTag (Py.Tag .context true 1)),
    Py.NamedType "cr" (Rfc2511.CertReqMessages.call.explicitTag (Py.Tag .context true 2)),
    Py.NamedType "cp" (Rfc4210.CertRepMessage.call.explicitTag (Py.Tag .context true 3)),
    Py.NamedType "p10cr" (Rfc2314.CertificationRequest.call.explicitTag (Py.Tag .context true 4)),
    Py.NamedType "popdecc" (Rfc4210.POPODecKeyChallContent.call.explicitTag (Py.Tag .context true 5)),
    Py.NamedType "popdecr" (Rfc4210.POPODecKeyRespContent.call.explicitTag (Py.Tag .context true 6)),
    Py.NamedType "kur" (Rfc2511.CertReqMessages.call.explicitTag (Py.Tag .context true 7)),
    Py.NamedType "kup" (Rfc4210.CertRepMessage.call.explicitTag (Py.Tag .context true 8)),
    Py.NamedType "krr" (Rfc2511.CertReqMessages.call.explicitTag (Py.Tag .context true 9)),
    Py.NamedType "krp" (Rfc4210.KeyRecRepContent.call.explicitTag (Py.Tag .context true 10)),
    Py.NamedType "rr" (Rfc4210.RevReqContent.call.explicitTag (Py.Tag .context true 11)),
    Py.NamedType "rp" (Rfc4210.RevRepContent.call.explicitTag (Py.Tag .context true 12)),
    Py.NamedType "ccr" (Rfc2511.CertReqMessages.call.explicitTag (Py.Tag .context true 13)),
    Py.NamedType "ccp" (Rfc4210.CertRepMessage.call.explicitTag (Py.Tag .context true 14)),
    Py.NamedType "ckuann" (Rfc4210.CAKeyUpdAnnContent.call.explicitTag (Py.Tag .context true 15)),
    Py.NamedType "cann" (Rfc4210.CertAnnContent.call.explicitTag (Py.Tag .context true 16)),
    Py.NamedType "rann" (Rfc4210.RevAnnContent.call.explicitTag (Py.Tag .context true 17)),
    Py.NamedType "crlann" (Rfc4210.CRLAnnContent.call.explicitTag (Py.Tag .context true 18)),
    Py.NamedType "pkiconf" (Rfc4210.PKIConfirmContent.call.explicitTag (Py.Tag .context true 19)),
    Py.NamedType "nested" Rfc4210.nestedMessageContent,
    Py.NamedType "genm" (Rfc4210.GenMsgContent.call.explicitTag (Py.Tag .context true 21)),
    Py.NamedType "gen" (Rfc4210.GenRepContent.call.explicitTag (Py.Tag .context true 22)),
    Py.NamedType "error" (Rfc4210.ErrorMsgContent.call.explicitTag (Py.Tag .context true 23)),
    Py.NamedType "certConf" (Rfc4210.CertConfirmContent.call.explicitTag (Py.Tag .context true 24)),
    Py.NamedType "pollReq" (Rfc4210.PollReqContent.call.explicitTag (Py.Tag .context true 25)),
    Py.NamedType "pollRep" (Rfc4210.PollRepContent.call.explicitTag (Py.Tag .context true 26))])

/-- rfc4210.py:700-751 `class PKIHeader(univ.Sequence)` -/
def PKIHeader : Py.Obj :=
  Py.univ.Sequence.setComponentType (Py.NamedTypes [
    Py.NamedType "pvno" (Py.univ.Integer.call.setNamedValues (Py.NamedValues [("cmp1999", 1), ("cmp2000", 2)])),
    Py.NamedType "sender" Rfc2459.GeneralName.call,
    Py.NamedType "recipient" Rfc2459.GeneralName.call,
    Py.OptionalNamedType "messageTime" (Py.useful.GeneralizedTime.call.explicitTag (Py.Tag .context false 0)),
    Py.OptionalNamedType "protectionAlg" (Rfc2459.AlgorithmIdentifier.call.explicitTag (Py.Tag .context true 1)),
    Py.OptionalNamedType "senderKID" (Rfc2459.KeyIdentifier.call.explicitTag (Py.Tag .context false 2)),
    Py.OptionalNamedType "recipKID" (Rfc2459.KeyIdentifier.call.explicitTag (Py.Tag .context false 3)),
    Py.OptionalNamedType "transactionID" (Py.univ.OctetString.call.explicitTag (Py.Tag .context false 4)),
    Py.OptionalNamedType "senderNonce" (Py.univ.OctetString.call.explicitTag (Py.Tag .context false 5)),
    Py.OptionalNamedType "recipNonce" (Py.univ.OctetString.call.explicitTag (Py.Tag .context false 6)),
    Py.OptionalNamedType "freeText" (Rfc4210.PKIFreeText.call.explicitTag (Py.Tag .context true 7)),
    Py.OptionalNamedType "generalInfo" ((Py.univ.SequenceOf.call.setComponentTypeOf (Rfc4210.InfoTypeAndValue.call.addSizeSpec (Py.ValueSizeConstraint (.fin 1) Rfc4210.MAX))).explicitTag (Py.Tag .context false 8))])

/-- rfc4210.py:754-764 `class ProtectedPart(univ.Sequence)` -/
def ProtectedPart : Py.Obj :=
  Py.univ.Sequence.setComponentType (Py.NamedTypes [
    Py.NamedType "header" Rfc4210.PKIHeader.call,
    Py.NamedType "infoValue" Rfc4210.PKIBody.call])

/-- rfc4210.py:767-789 `class PKIMessage(univ.Sequence)` -/
def PKIMessage : Py.Obj :=
  Py.univ.Sequence.setComponentType (Py.NamedTypes [
    Py.NamedType "header" Rfc4210.PKIHeader.call,
    Py.NamedType "body" Rfc4210.PKIBody.call,
    Py.OptionalNamedType "protection" (Rfc4210.PKIProtection.call.explicitTag (Py.Tag .context false 0)),
    Py.OptionalNamedType "extraCerts" (((Py.univ.SequenceOf.call.setComponentTypeOf Rfc4210.CMPCertificate.call).explicitTag (Py.Tag .context true 1)).addSizeSpec (Py.ValueSizeConstraint (.fin 1) Rfc4210.MAX))])

/-- rfc4210.py:792-797 `class PKIMessages(univ.SequenceOf)` -/
def PKIMessages : Py.Obj :=
  (Py.univ.SequenceOf.setComponentTypeOf Rfc4210.PKIMessage.call).setSizeSpec (Py.univ.SequenceOf.sizeSpec.add (Py.ValueSizeConstraint (.fin 1) Rfc4210.MAX))

-- rfc4210.py:802 `NestedMessageContent._componentType = PKIMessages()`: sets `_componentType`, which pyasn1 never reads; no effect.

-- rfc4210.py:803 `nestedMessageContent._componentType = PKIMessages()`: sets `_componentType`, which pyasn1 never reads; no effect.

/-- Modules of this package imported by rfc4210.py, in textual order. -/
def imports : List Py.Ident :=
  [(Py.mod 7 "rfc2314"), (Py.mod 6 "rfc2459"), (Py.mod 10 "rfc2511")]

/-- Dictionary operations executed when rfc4210.py is imported, in program order. -/
def effects : List Py.Effect :=
  []

/-- ASN.1 types rfc4210.py binds at module level (final version of each name), plus nested classes. -/
def classes : List (String × Py.Obj) :=
  [("rfc4210.KeyIdentifier", Rfc4210.KeyIdentifier),
   ("rfc4210.CMPCertificate", Rfc4210.CMPCertificate),
   ("rfc4210.OOBCert", Rfc4210.OOBCert),
   ("rfc4210.CertAnnContent", Rfc4210.CertAnnContent),
   ("rfc4210.PKIFreeText", Rfc4210.PKIFreeText),
   ("rfc4210.PollRepContent", Rfc4210.PollRepContent),
   ("rfc4210.PollReqContent", Rfc4210.PollReqContent),
   ("rfc4210.InfoTypeAndValue", Rfc4210.InfoTypeAndValue),
   ("rfc4210.GenRepContent", Rfc4210.GenRepContent),
   ("rfc4210.GenMsgContent", Rfc4210.GenMsgContent),
   ("rfc4210.PKIConfirmContent", Rfc4210.PKIConfirmContent),
   ("rfc4210.CRLAnnContent", Rfc4210.CRLAnnContent),
   ("rfc4210.CAKeyUpdAnnContent", Rfc4210.CAKeyUpdAnnContent),
   ("rfc4210.RevDetails", Rfc4210.RevDetails),
   ("rfc4210.RevReqContent", Rfc4210.RevReqContent),
   ("rfc4210.CertOrEncCert", Rfc4210.CertOrEncCert),
   ("rfc4210.CertifiedKeyPair", Rfc4210.CertifiedKeyPair),
   ("rfc4210.POPODecKeyRespContent", Rfc4210.POPODecKeyRespContent),
   ("rfc4210.Challenge", Rfc4210.Challenge),
   ("rfc4210.PKIStatus", Rfc4210.PKIStatus),
   ("rfc4210.PKIFailureInfo", Rfc4210.PKIFailureInfo),
   ("rfc4210.PKIStatusInfo", Rfc4210.PKIStatusInfo),
   ("rfc4210.ErrorMsgContent", Rfc4210.ErrorMsgContent),
   ("rfc4210.CertStatus", Rfc4210.CertStatus),
   ("rfc4210.CertConfirmContent", Rfc4210.CertConfirmContent),
   ("rfc4210.RevAnnContent", Rfc4210.RevAnnContent),
   ("rfc4210.RevRepContent", Rfc4210.RevRepContent),
   ("rfc4210.KeyRecRepContent", Rfc4210.KeyRecRepContent),
   ("rfc4210.CertResponse", Rfc4210.CertResponse),
   ("rfc4210.CertRepMessage", Rfc4210.CertRepMessage),
   ("rfc4210.POPODecKeyChallContent", Rfc4210.POPODecKeyChallContent),
   ("rfc4210.OOBCertHash", Rfc4210.OOBCertHash),
   ("rfc4210.NestedMessageContent", Rfc4210.NestedMessageContent),
   ("rfc4210.DHBMParameter", Rfc4210.DHBMParameter),
   ("rfc4210.PBMParameter", Rfc4210.PBMParameter),
   ("rfc4210.PKIProtection", Rfc4210.PKIProtection),
   ("rfc4210.PKIBody", Rfc4210.PKIBody),
   ("rfc4210.PKIHeader", Rfc4210.PKIHeader),
   ("rfc4210.ProtectedPart", Rfc4210.ProtectedPart),
   ("rfc4210.PKIMessage", Rfc4210.PKIMessage),
   ("rfc4210.PKIMessages", Rfc4210.PKIMessages),
   ("rfc4210.PollRepContent.CertReq", Rfc4210.PollRepContent_CertReq),
   ("rfc4210.PollReqContent.CertReq", Rfc4210.PollReqContent_CertReq)]

/-- pyasn1 instances rfc4210.py binds at module level. -/
def objects : List (String × Py.Obj) :=
  [("rfc4210.id_DHBasedMac", Rfc4210.id_DHBasedMac),
   ("rfc4210.id_PasswordBasedMac", Rfc4210.id_PasswordBasedMac),
   ("rfc4210.nestedMessageContent", Rfc4210.nestedMessageContent)]

/-- pyasn1 instances rfc4210.py fills in by item assignment. -/
def protos : List (String × Py.Proto) :=
  []

/-- Every place of rfc4210.py that instantiates a class of the package: where, the class as it is
at that point, and the class as it is when the import has finished. -/
def snapshots : List Py.Snapshot :=
  [⟨"rfc4210.py:63", Rfc4210.PKIFreeText, Rfc4210.PKIFreeText⟩,
   ⟨"rfc4210.py:66", Rfc4210.PollRepContent_CertReq, Rfc4210.PollRepContent_CertReq⟩,
   ⟨"rfc4210.py:82", Rfc4210.PollReqContent_CertReq, Rfc4210.PollReqContent_CertReq⟩,
   ⟨"rfc4210.py:98", Rfc4210.InfoTypeAndValue, Rfc4210.InfoTypeAndValue⟩,
   ⟨"rfc4210.py:102", Rfc4210.InfoTypeAndValue, Rfc4210.InfoTypeAndValue⟩,
   ⟨"rfc4210.py:110", Rfc2459.CertificateList, Rfc2459.CertificateList⟩,
   ⟨"rfc4210.py:122", Rfc4210.CMPCertificate, Rfc4210.CMPCertificate⟩,
   ⟨"rfc4210.py:123", Rfc4210.CMPCertificate, Rfc4210.CMPCertificate⟩,
   ⟨"rfc4210.py:124", Rfc4210.CMPCertificate, Rfc4210.CMPCertificate⟩,
   ⟨"rfc4210.py:136", Rfc2511.CertTemplate, Rfc2511.CertTemplate⟩,
   ⟨"rfc4210.py:137", Rfc2459.Extensions, Rfc2459.Extensions⟩,
   ⟨"rfc4210.py:142", Rfc4210.RevDetails, Rfc4210.RevDetails⟩,
   ⟨"rfc4210.py:153", Rfc4210.CMPCertificate, Rfc4210.CMPCertificate⟩,
   ⟨"rfc4210.py:154", Rfc2511.EncryptedValue, Rfc2511.EncryptedValue⟩,
   ⟨"rfc4210.py:167", Rfc4210.CertOrEncCert, Rfc4210.CertOrEncCert⟩,
   ⟨"rfc4210.py:168", Rfc2511.EncryptedValue, Rfc2511.EncryptedValue⟩,
   ⟨"rfc4210.py:169", Rfc2511.PKIPublicationInfo, Rfc2511.PKIPublicationInfo⟩,
   ⟨"rfc4210.py:186", Rfc2459.AlgorithmIdentifier, Rfc2459.AlgorithmIdentifier⟩,
   ⟨"rfc4210.py:286", Rfc4210.PKIStatus, Rfc4210.PKIStatus⟩,
   ⟨"rfc4210.py:287", Rfc4210.PKIFreeText, Rfc4210.PKIFreeText⟩,
   ⟨"rfc4210.py:288", Rfc4210.PKIFailureInfo, Rfc4210.PKIFailureInfo⟩,
   ⟨"rfc4210.py:303", Rfc4210.PKIStatusInfo, Rfc4210.PKIStatusInfo⟩,
   ⟨"rfc4210.py:305", Rfc4210.PKIFreeText, Rfc4210.PKIFreeText⟩,
   ⟨"rfc4210.py:320", Rfc4210.PKIStatusInfo, Rfc4210.PKIStatusInfo⟩,
   ⟨"rfc4210.py:325", Rfc4210.CertStatus, Rfc4210.CertStatus⟩,
   ⟨"rfc4210.py:339", Rfc4210.PKIStatus, Rfc4210.PKIStatus⟩,
   ⟨"rfc4210.py:340", Rfc2511.CertId, Rfc2511.CertId⟩,
   ⟨"rfc4210.py:343", Rfc2459.Extensions, Rfc2459.Extensions⟩,
   ⟨"rfc4210.py:359", Rfc4210.PKIStatusInfo, Rfc4210.PKIStatusInfo⟩,
   ⟨"rfc4210.py:364", Rfc2511.CertId, Rfc2511.CertId⟩,
   ⟨"rfc4210.py:370", Rfc2459.CertificateList, Rfc2459.CertificateList⟩,
   ⟨"rfc4210.py:390", Rfc4210.PKIStatusInfo, Rfc4210.PKIStatusInfo⟩,
   ⟨"rfc4210.py:392", Rfc4210.CMPCertificate, Rfc4210.CMPCertificate⟩,
   ⟨"rfc4210.py:397", Rfc4210.CMPCertificate, Rfc4210.CMPCertificate⟩,
   ⟨"rfc4210.py:402", Rfc4210.CertifiedKeyPair, Rfc4210.CertifiedKeyPair⟩,
   ⟨"rfc4210.py:420", Rfc4210.PKIStatusInfo, Rfc4210.PKIStatusInfo⟩,
   ⟨"rfc4210.py:421", Rfc4210.CertifiedKeyPair, Rfc4210.CertifiedKeyPair⟩,
   ⟨"rfc4210.py:437", Rfc4210.CMPCertificate, Rfc4210.CMPCertificate⟩,
   ⟨"rfc4210.py:441", Rfc4210.CertResponse, Rfc4210.CertResponse⟩,
   ⟨"rfc4210.py:446", Rfc4210.Challenge, Rfc4210.Challenge⟩,
   ⟨"rfc4210.py:459", Rfc2459.AlgorithmIdentifier, Rfc2459.AlgorithmIdentifier⟩,
   ⟨"rfc4210.py:462", Rfc2511.CertId, Rfc2511.CertId⟩,
   ⟨"rfc4210.py:487", Rfc2459.AlgorithmIdentifier, Rfc2459.AlgorithmIdentifier⟩,
   ⟨"rfc4210.py:488", Rfc2459.AlgorithmIdentifier, Rfc2459.AlgorithmIdentifier⟩,
   ⟨"rfc4210.py:508", Rfc2459.AlgorithmIdentifier, Rfc2459.AlgorithmIdentifier⟩,
   ⟨"rfc4210.py:510", Rfc2459.AlgorithmIdentifier, Rfc2459.AlgorithmIdentifier⟩,
   ⟨"rfc4210.py:523", Rfc4210.NestedMessageContent, Rfc4210.NestedMessageContent⟩,
   ⟨"rfc4210.py:561", Rfc2511.CertReqMessages, Rfc2511.CertReqMessages⟩,
   ⟨"rfc4210.py:566", Rfc4210.CertRepMessage, Rfc4210.CertRepMessage⟩,
   ⟨"rfc4210.py:571", Rfc2511.CertReqMessages, Rfc2511.CertReqMessages⟩,
   ⟨"rfc4210.py:576", Rfc4210.CertRepMessage, Rfc4210.CertRepMessage⟩,
   ⟨"rfc4210.py:581", Rfc2314.CertificationRequest, Rfc2314.CertificationRequest⟩,
   ⟨"rfc4210.py:586", Rfc4210.POPODecKeyChallContent, Rfc4210.POPODecKeyChallContent⟩,
   ⟨"rfc4210.py:591", Rfc4210.POPODecKeyRespContent, Rfc4210.POPODecKeyRespContent⟩,
   ⟨"rfc4210.py:596", Rfc2511.CertReqMessages, Rfc2511.CertReqMessages⟩,
   ⟨"rfc4210.py:601", Rfc4210.CertRepMessage, Rfc4210.CertRepMessage⟩,
   ⟨"rfc4210.py:606", Rfc2511.CertReqMessages, Rfc2511.CertReqMessages⟩,
   ⟨"rfc4210.py:611", Rfc4210.KeyRecRepContent, Rfc4210.KeyRecRepContent⟩,
   ⟨"rfc4210.py:616", Rfc4210.RevReqContent, Rfc4210.RevReqContent⟩,
   ⟨"rfc4210.py:621", Rfc4210.RevRepContent, Rfc4210.RevRepContent⟩,
   ⟨"rfc4210.py:626", Rfc2511.CertReqMessages, Rfc2511.CertReqMessages⟩,
   ⟨"rfc4210.py:631", Rfc4210.CertRepMessage, Rfc4210.CertRepMessage⟩,
   ⟨"rfc4210.py:636", Rfc4210.CAKeyUpdAnnContent, Rfc4210.CAKeyUpdAnnContent⟩,
   ⟨"rfc4210.py:641", Rfc4210.CertAnnContent, Rfc4210.CertAnnContent⟩,
   ⟨"rfc4210.py:646", Rfc4210.RevAnnContent, Rfc4210.RevAnnContent⟩,
   ⟨"rfc4210.py:651", Rfc4210.CRLAnnContent, Rfc4210.CRLAnnContent⟩,
   ⟨"rfc4210.py:656", Rfc4210.PKIConfirmContent, Rfc4210.PKIConfirmContent⟩,
   ⟨"rfc4210.py:668", Rfc4210.GenMsgContent, Rfc4210.GenMsgContent⟩,
   ⟨"rfc4210.py:673", Rfc4210.GenRepContent, Rfc4210.GenRepContent⟩,
   ⟨"rfc4210.py:678", Rfc4210.ErrorMsgContent, Rfc4210.ErrorMsgContent⟩,
   ⟨"rfc4210.py:683", Rfc4210.CertConfirmContent, Rfc4210.CertConfirmContent⟩,
   ⟨"rfc4210.py:688", Rfc4210.PollReqContent, Rfc4210.PollReqContent⟩,
   ⟨"rfc4210.py:693", Rfc4210.PollRepContent, Rfc4210.PollRepContent⟩,
   ⟨"rfc4210.py:725", Rfc2459.GeneralName, Rfc2459.GeneralName⟩,
   ⟨"rfc4210.py:726", Rfc2459.GeneralName, Rfc2459.GeneralName⟩,
   ⟨"rfc4210.py:729", Rfc2459.AlgorithmIdentifier, Rfc2459.AlgorithmIdentifier⟩,
   ⟨"rfc4210.py:731", Rfc2459.KeyIdentifier, Rfc2459.KeyIdentifier⟩,
   ⟨"rfc4210.py:733", Rfc2459.KeyIdentifier, Rfc2459.KeyIdentifier⟩,
   ⟨"rfc4210.py:741", Rfc4210.PKIFreeText, Rfc4210.PKIFreeText⟩,
   ⟨"rfc4210.py:745", Rfc4210.InfoTypeAndValue, Rfc4210.InfoTypeAndValue⟩,
   ⟨"rfc4210.py:762", Rfc4210.PKIHeader, Rfc4210.PKIHeader⟩,
   ⟨"rfc4210.py:763", Rfc4210.PKIBody, Rfc4210.PKIBody⟩,
   ⟨"rfc4210.py:777", Rfc4210.PKIHeader, Rfc4210.PKIHeader⟩,
   ⟨"rfc4210.py:778", Rfc4210.PKIBody, Rfc4210.PKIBody⟩,
   ⟨"rfc4210.py:779", Rfc4210.PKIProtection, Rfc4210.PKIProtection⟩,
   ⟨"rfc4210.py:783", Rfc4210.CMPCertificate, Rfc4210.CMPCertificate⟩,
   ⟨"rfc4210.py:796", Rfc4210.PKIMessage, Rfc4210.PKIMessage⟩]

/-- Functions rfc4210.py defines. -/
def builders : List (String × (List Py.OidArg → Py.Obj)) :=
  []

def asModule : Py.Module :=
  { id := (Py.mod 30 "rfc4210"), imports := imports, effects := effects, classes := classes, objects := objects, protos := protos, snapshots := snapshots, builders := builders }

end Rfc4210
end Verif
