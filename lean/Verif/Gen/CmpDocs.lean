import Verif.Spec.Notation

/-! Written by tools/asn1doc.py: the ASN.1 in the docstrings of /repo/pyasn1_modules/rfc4210.py. -/

namespace Verif.Gen.CmpDocs
open Verif.Spec

/-- rfc4210.py:43-45, docstring of `PKIFreeText`. -/
def PKIFreeText : Notation :=
  .seqOf (some 1) (.utf8String)

/-- rfc4210.py:51-57, docstring of `PollRepContent`. -/
def PollRepContent : Notation :=
  .seqOf none (.seq (.cons "certReqId" none false (.integer []) <|
    .cons "checkAfter" none false (.integer []) <|
    .cons "reason" none true (.ref "PKIFreeText") <|
    .nil))

/-- rfc4210.py:70-75, docstring of `PollReqContent`. -/
def PollReqContent : Notation :=
  .seqOf none (.seq (.cons "certReqId" none false (.integer []) <|
    .nil))

/-- rfc4210.py:86-90, docstring of `InfoTypeAndValue`. -/
def InfoTypeAndValue : Notation :=
  .seq (.cons "infoType" none false (.oid) <|
    .cons "infoValue" none true (.any) <|
    .nil)

/-- rfc4210.py:114-120, docstring of `CAKeyUpdAnnContent`. -/
def CAKeyUpdAnnContent : Notation :=
  .seq (.cons "oldWithNew" none false (.ref "CMPCertificate") <|
    .cons "newWithOld" none false (.ref "CMPCertificate") <|
    .cons "newWithNew" none false (.ref "CMPCertificate") <|
    .nil)

/-- rfc4210.py:129-134, docstring of `RevDetails`. -/
def RevDetails : Notation :=
  .seq (.cons "certDetails" none false (.ref "CertTemplate") <|
    .cons "crlEntryDetails" none true (.ref "Extensions") <|
    .nil)

/-- rfc4210.py:146-151, docstring of `CertOrEncCert`. -/
def CertOrEncCert : Notation :=
  .choice (.cons "certificate" (some 0) false (.ref "CMPCertificate") <|
    .cons "encryptedCert" (some 1) false (.ref "EncryptedValue") <|
    .nil)

/-- rfc4210.py:159-165, docstring of `CertifiedKeyPair`. -/
def CertifiedKeyPair : Notation :=
  .seq (.cons "certOrEncCert" none false (.ref "CertOrEncCert") <|
    .cons "privateKey" (some 0) true (.ref "EncryptedValue") <|
    .cons "publicationInfo" (some 1) true (.ref "PKIPublicationInfo") <|
    .nil)

/-- rfc4210.py:178-184, docstring of `Challenge`. -/
def Challenge : Notation :=
  .seq (.cons "owf" none true (.ref "AlgorithmIdentifier") <|
    .cons "witness" none false (.octetString) <|
    .cons "challenge" none false (.octetString) <|
    .nil)

/-- rfc4210.py:193-203, docstring of `PKIStatus`. -/
def PKIStatus : Notation :=
  .integer [("accepted", 0), ("grantedWithMods", 1), ("rejection", 2), ("waiting", 3), ("revocationWarning", 4), ("revocationNotification", 5), ("keyUpdateWarning", 6)]

/-- rfc4210.py:216-245, docstring of `PKIFailureInfo`. -/
def PKIFailureInfo : Notation :=
  .bitString [("badAlg", 0), ("badMessageCheck", 1), ("badRequest", 2), ("badTime", 3), ("badCertId", 4), ("badDataFormat", 5), ("wrongAuthority", 6), ("incorrectData", 7), ("missingTimeStamp", 8), ("badPOP", 9), ("certRevoked", 10), ("certConfirmed", 11), ("wrongIntegrity", 12), ("badRecipientNonce", 13), ("timeNotAvailable", 14), ("unacceptedPolicy", 15), ("unacceptedExtension", 16), ("addInfoNotAvailable", 17), ("badSenderNonce", 18), ("badCertTemplate", 19), ("signerNotTrusted", 20), ("transactionIdInUse", 21), ("unsupportedVersion", 22), ("notAuthorized", 23), ("systemUnavail", 24), ("systemFailure", 25), ("duplicateCertReq", 26)]

/-- rfc4210.py:278-284, docstring of `PKIStatusInfo`. -/
def PKIStatusInfo : Notation :=
  .seq (.cons "status" none false (.ref "PKIStatus") <|
    .cons "statusString" none true (.ref "PKIFreeText") <|
    .cons "failInfo" none true (.ref "PKIFailureInfo") <|
    .nil)

/-- rfc4210.py:293-301, docstring of `ErrorMsgContent`. -/
def ErrorMsgContent : Notation :=
  .seq (.cons "pKIStatusInfo" none false (.ref "PKIStatusInfo") <|
    .cons "errorCode" none true (.integer []) <|
    .cons "errorDetails" none true (.ref "PKIFreeText") <|
    .nil)

/-- rfc4210.py:310-316, docstring of `CertStatus`. -/
def CertStatus : Notation :=
  .seq (.cons "certHash" none false (.octetString) <|
    .cons "certReqId" none false (.integer []) <|
    .cons "statusInfo" none true (.ref "PKIStatusInfo") <|
    .nil)

/-- rfc4210.py:329-337, docstring of `RevAnnContent`. -/
def RevAnnContent : Notation :=
  .seq (.cons "status" none false (.ref "PKIStatus") <|
    .cons "certId" none false (.ref "CertId") <|
    .cons "willBeRevokedAt" none false (.generalizedTime) <|
    .cons "badSinceDate" none false (.generalizedTime) <|
    .cons "crlDetails" none true (.ref "Extensions") <|
    .nil)

/-- rfc4210.py:348-355, docstring of `RevRepContent`. -/
def RevRepContent : Notation :=
  .seq (.cons "status" none false (.seqOf (some 1) (.ref "PKIStatusInfo")) <|
    .cons "revCerts" (some 0) true (.seqOf (some 1) (.ref "CertId")) <|
    .cons "crls" (some 1) true (.seqOf (some 1) (.ref "CertificateList")) <|
    .nil)

/-- rfc4210.py:379-388, docstring of `KeyRecRepContent`. -/
def KeyRecRepContent : Notation :=
  .seq (.cons "status" none false (.ref "PKIStatusInfo") <|
    .cons "newSigCert" (some 0) true (.ref "CMPCertificate") <|
    .cons "caCerts" (some 1) true (.seqOf (some 1) (.ref "CMPCertificate")) <|
    .cons "keyPairHist" (some 2) true (.seqOf (some 1) (.ref "CertifiedKeyPair")) <|
    .nil)

/-- rfc4210.py:410-417, docstring of `CertResponse`. -/
def CertResponse : Notation :=
  .seq (.cons "certReqId" none false (.integer []) <|
    .cons "status" none false (.ref "PKIStatusInfo") <|
    .cons "certifiedKeyPair" none true (.ref "CertifiedKeyPair") <|
    .cons "rspInfo" none true (.octetString) <|
    .nil)

/-- rfc4210.py:427-433, docstring of `CertRepMessage`. -/
def CertRepMessage : Notation :=
  .seq (.cons "caPubs" (some 1) true (.seqOf (some 1) (.ref "CMPCertificate")) <|
    .cons "response" none false (.seqOf none (.ref "CertResponse")) <|
    .nil)

/-- rfc4210.py:450-456, docstring of `OOBCertHash`. -/
def OOBCertHash : Notation :=
  .seq (.cons "hashAlg" (some 0) true (.ref "AlgorithmIdentifier") <|
    .cons "certId" (some 1) true (.ref "CertId") <|
    .cons "hashVal" none false (.bitString []) <|
    .nil)

/-- rfc4210.py:471-473, docstring of `NestedMessageContent`. -/
def NestedMessageContent : Notation :=
  .ref "PKIMessages"

/-- rfc4210.py:478-485, docstring of `DHBMParameter`. -/
def DHBMParameter : Notation :=
  .seq (.cons "owf" none false (.ref "AlgorithmIdentifier") <|
    .cons "mac" none false (.ref "AlgorithmIdentifier") <|
    .nil)

/-- rfc4210.py:496-503, docstring of `PBMParameter`. -/
def PBMParameter : Notation :=
  .seq (.cons "salt" none false (.octetString) <|
    .cons "owf" none false (.ref "AlgorithmIdentifier") <|
    .cons "iterationCount" none false (.integer []) <|
    .cons "mac" none false (.ref "AlgorithmIdentifier") <|
    .nil)

/-- rfc4210.py:528-558, docstring of `PKIBody`. -/
def PKIBody : Notation :=
  .choice (.cons "ir" (some 0) false (.ref "CertReqMessages") <|
    .cons "ip" (some 1) false (.ref "CertRepMessage") <|
    .cons "cr" (some 2) false (.ref "CertReqMessages") <|
    .cons "cp" (some 3) false (.ref "CertRepMessage") <|
    .cons "p10cr" (some 4) false (.ref "CertificationRequest") <|
    .cons "popdecc" (some 5) false (.ref "POPODecKeyChallContent") <|
    .cons "popdecr" (some 6) false (.ref "POPODecKeyRespContent") <|
    .cons "kur" (some 7) false (.ref "CertReqMessages") <|
    .cons "kup" (some 8) false (.ref "CertRepMessage") <|
    .cons "krr" (some 9) false (.ref "CertReqMessages") <|
    .cons "krp" (some 10) false (.ref "KeyRecRepContent") <|
    .cons "rr" (some 11) false (.ref "RevReqContent") <|
    .cons "rp" (some 12) false (.ref "RevRepContent") <|
    .cons "ccr" (some 13) false (.ref "CertReqMessages") <|
    .cons "ccp" (some 14) false (.ref "CertRepMessage") <|
    .cons "ckuann" (some 15) false (.ref "CAKeyUpdAnnContent") <|
    .cons "cann" (some 16) false (.ref "CertAnnContent") <|
    .cons "rann" (some 17) false (.ref "RevAnnContent") <|
    .cons "crlann" (some 18) false (.ref "CRLAnnContent") <|
    .cons "pkiconf" (some 19) false (.ref "PKIConfirmContent") <|
    .cons "nested" (some 20) false (.ref "NestedMessageContent") <|
    .cons "genm" (some 21) false (.ref "GenMsgContent") <|
    .cons "genp" (some 22) false (.ref "GenRepContent") <|
    .cons "error" (some 23) false (.ref "ErrorMsgContent") <|
    .cons "certConf" (some 24) false (.ref "CertConfirmContent") <|
    .cons "pollReq" (some 25) false (.ref "PollReqContent") <|
    .cons "pollRep" (some 26) false (.ref "PollRepContent") <|
    .nil)

/-- rfc4210.py:701-718, docstring of `PKIHeader`. -/
def PKIHeader : Notation :=
  .seq (.cons "pvno" none false (.integer [("cmp1999", 1), ("cmp2000", 2)]) <|
    .cons "sender" none false (.ref "GeneralName") <|
    .cons "recipient" none false (.ref "GeneralName") <|
    .cons "messageTime" (some 0) true (.generalizedTime) <|
    .cons "protectionAlg" (some 1) true (.ref "AlgorithmIdentifier") <|
    .cons "senderKID" (some 2) true (.ref "KeyIdentifier") <|
    .cons "recipKID" (some 3) true (.ref "KeyIdentifier") <|
    .cons "transactionID" (some 4) true (.octetString) <|
    .cons "senderNonce" (some 5) true (.octetString) <|
    .cons "recipNonce" (some 6) true (.octetString) <|
    .cons "freeText" (some 7) true (.ref "PKIFreeText") <|
    .cons "generalInfo" (some 8) true (.seqOf (some 1) (.ref "InfoTypeAndValue")) <|
    .nil)

/-- rfc4210.py:755-760, docstring of `ProtectedPart`. -/
def ProtectedPart : Notation :=
  .seq (.cons "header" none false (.ref "PKIHeader") <|
    .cons "body" none false (.ref "PKIBody") <|
    .nil)

/-- rfc4210.py:768-775, docstring of `PKIMessage`. -/
def PKIMessage : Notation :=
  .seq (.cons "header" none false (.ref "PKIHeader") <|
    .cons "body" none false (.ref "PKIBody") <|
    .cons "protection" (some 0) true (.ref "PKIProtection") <|
    .cons "extraCerts" (some 1) true (.seqOf (some 1) (.ref "CMPCertificate")) <|
    .nil)

/-- rfc4210.py:793-795, docstring of `PKIMessages`. -/
def PKIMessages : Notation :=
  .seqOf (some 1) (.ref "PKIMessage")

/-- Every docstring of rfc4210.py that holds ASN.1, in source order. -/
def all : List (String × Notation) := [
  ("PKIFreeText", PKIFreeText),
  ("PollRepContent", PollRepContent),
  ("PollReqContent", PollReqContent),
  ("InfoTypeAndValue", InfoTypeAndValue),
  ("CAKeyUpdAnnContent", CAKeyUpdAnnContent),
  ("RevDetails", RevDetails),
  ("CertOrEncCert", CertOrEncCert),
  ("CertifiedKeyPair", CertifiedKeyPair),
  ("Challenge", Challenge),
  ("PKIStatus", PKIStatus),
  ("PKIFailureInfo", PKIFailureInfo),
  ("PKIStatusInfo", PKIStatusInfo),
  ("ErrorMsgContent", ErrorMsgContent),
  ("CertStatus", CertStatus),
  ("RevAnnContent", RevAnnContent),
  ("RevRepContent", RevRepContent),
  ("KeyRecRepContent", KeyRecRepContent),
  ("CertResponse", CertResponse),
  ("CertRepMessage", CertRepMessage),
  ("OOBCertHash", OOBCertHash),
  ("NestedMessageContent", NestedMessageContent),
  ("DHBMParameter", DHBMParameter),
  ("PBMParameter", PBMParameter),
  ("PKIBody", PKIBody),
  ("PKIHeader", PKIHeader),
  ("ProtectedPart", ProtectedPart),
  ("PKIMessage", PKIMessage),
  ("PKIMessages", PKIMessages)]

end Verif.Gen.CmpDocs
