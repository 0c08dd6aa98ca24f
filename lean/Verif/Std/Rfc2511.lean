import Verif.Spec.Grade
import Verif.Gen.Rfc2511
import Verif.Std.Rfc2315
import Verif.Std.Rfc2459

/-! The ASN.1 of tools/std/rfc2511.asn1 (generated by tools/stdgen.py). -/

namespace Verif
namespace Std
namespace Rfc2511

open Asn1 Spec.X680

/-- `OptionalValidity ::=` -/
def OptionalValidity : Ty :=
  SEQUENCE [
    optional "notBefore" (implicit .context 0 Std.Rfc2459.Time),
    optional "notAfter" (implicit .context 1 Std.Rfc2459.Time)]

/-- `CertTemplate ::=` -/
def CertTemplate : Ty :=
  SEQUENCE [
    optional "version" (implicit .context 0 Std.Rfc2459.Version),
    optional "serialNumber" (implicit .context 1 INTEGER),
    optional "signingAlg" (implicit .context 2 Std.Rfc2459.AlgorithmIdentifier),
    optional "issuer" (implicit .context 3 Std.Rfc2459.Name),
    optional "validity" (implicit .context 4 OptionalValidity),
    optional "subject" (implicit .context 5 Std.Rfc2459.Name),
    optional "publicKey" (implicit .context 6 Std.Rfc2459.SubjectPublicKeyInfo),
    optional "issuerUID" (implicit .context 7 Std.Rfc2459.UniqueIdentifier),
    optional "subjectUID" (implicit .context 8 Std.Rfc2459.UniqueIdentifier),
    optional "extensions" (implicit .context 9 Std.Rfc2459.Extensions)]

/-- `Controls ::=` -/
def Controls : Ty :=
  constrained (SIZE_MAX 1) (SEQUENCE_OF Std.Rfc2459.AttributeTypeAndValue)

/-- `CertRequest ::=` -/
def CertRequest : Ty :=
  SEQUENCE [
    mandatory "certReqId" INTEGER,
    mandatory "certTemplate" CertTemplate,
    optional "controls" Controls]

/-- `PKMACValue ::=` -/
def PKMACValue : Ty :=
  SEQUENCE [
    mandatory "algId" Std.Rfc2459.AlgorithmIdentifier,
    mandatory "value" BIT_STRING]

/-- `POPOSigningKeyInput ::=` -/
def POPOSigningKeyInput : Ty :=
  SEQUENCE [
    mandatory "authInfo" (CHOICE [
      mandatory "sender" (implicit .context 0 Std.Rfc2459.GeneralName),
      mandatory "publicKeyMAC" PKMACValue]),
    mandatory "publicKey" Std.Rfc2459.SubjectPublicKeyInfo]

/-- `POPOSigningKey ::=` -/
def POPOSigningKey : Ty :=
  SEQUENCE [
    optional "poposkInput" (implicit .context 0 POPOSigningKeyInput),
    mandatory "algorithmIdentifier" Std.Rfc2459.AlgorithmIdentifier,
    mandatory "signature" BIT_STRING]

/-- `SubsequentMessage ::=` -/
def SubsequentMessage : Ty :=
  named [("encrCert", 0), ("challengeResp", 1)] INTEGER

/-- `POPOPrivKey ::=` -/
def POPOPrivKey : Ty :=
  CHOICE [
    mandatory "thisMessage" (implicit .context 0 BIT_STRING),
    mandatory "subsequentMessage" (implicit .context 1 SubsequentMessage),
    mandatory "dhMAC" (implicit .context 2 BIT_STRING)]

/-- `ProofOfPossession ::=` -/
def ProofOfPossession : Ty :=
  CHOICE [
    mandatory "raVerified" (implicit .context 0 NULL),
    mandatory "signature" (implicit .context 1 POPOSigningKey),
    mandatory "keyEncipherment" (implicit .context 2 POPOPrivKey),
    mandatory "keyAgreement" (implicit .context 3 POPOPrivKey)]

/-- `CertReqMsg ::=` -/
def CertReqMsg : Ty :=
  SEQUENCE [
    mandatory "certReq" CertRequest,
    optional "popo" ProofOfPossession,
    optional "regInfo" (constrained (SIZE_MAX 1) (SEQUENCE_OF Std.Rfc2459.AttributeTypeAndValue))]

/-- `CertReqMessages ::=` -/
def CertReqMessages : Ty :=
  constrained (SIZE_MAX 1) (SEQUENCE_OF CertReqMsg)

/-- `PBMParameter ::=` -/
def PBMParameter : Ty :=
  SEQUENCE [
    mandatory "salt" OCTET_STRING,
    mandatory "owf" Std.Rfc2459.AlgorithmIdentifier,
    mandatory "iterationCount" INTEGER,
    mandatory "mac" Std.Rfc2459.AlgorithmIdentifier]

/-- `DHBMParameter ::=` -/
def DHBMParameter : Ty :=
  SEQUENCE [
    mandatory "owf" Std.Rfc2459.AlgorithmIdentifier,
    mandatory "mac" Std.Rfc2459.AlgorithmIdentifier]

/-- `RegToken ::=` -/
def RegToken : Ty :=
  UTF8String

/-- `Authenticator ::=` -/
def Authenticator : Ty :=
  UTF8String

/-- `SinglePubInfo ::=` -/
def SinglePubInfo : Ty :=
  SEQUENCE [
    mandatory "pubMethod" (named [("dontCare", 0), ("x500", 1), ("web", 2), ("ldap", 3)] INTEGER),
    optional "pubLocation" Std.Rfc2459.GeneralName]

/-- `PKIPublicationInfo ::=` -/
def PKIPublicationInfo : Ty :=
  SEQUENCE [
    mandatory "action" (named [("dontPublish", 0), ("pleasePublish", 1)] INTEGER),
    optional "pubInfos" (constrained (SIZE_MAX 1) (SEQUENCE_OF SinglePubInfo))]

/-- `EncryptedValue ::=` -/
def EncryptedValue : Ty :=
  SEQUENCE [
    optional "intendedAlg" (implicit .context 0 Std.Rfc2459.AlgorithmIdentifier),
    optional "symmAlg" (implicit .context 1 Std.Rfc2459.AlgorithmIdentifier),
    optional "encSymmKey" (implicit .context 2 BIT_STRING),
    optional "keyAlg" (implicit .context 3 Std.Rfc2459.AlgorithmIdentifier),
    optional "valueHint" (implicit .context 4 OCTET_STRING),
    mandatory "encValue" BIT_STRING]

/-- `EncryptedKey ::=` -/
def EncryptedKey : Ty :=
  CHOICE [
    mandatory "encryptedValue" EncryptedValue,
    mandatory "envelopedData" (implicit .context 0 Std.Rfc2315.EnvelopedData)]

/-- `KeyGenParameters ::=` -/
def KeyGenParameters : Ty :=
  OCTET_STRING

/-- `PKIArchiveOptions ::=` -/
def PKIArchiveOptions : Ty :=
  CHOICE [
    mandatory "encryptedPrivKey" (implicit .context 0 EncryptedKey),
    mandatory "keyGenParameters" (implicit .context 1 KeyGenParameters),
    mandatory "archiveRemGenPrivKey" (implicit .context 2 BOOLEAN)]

/-- `CertId ::=` -/
def CertId : Ty :=
  SEQUENCE [
    mandatory "issuer" Std.Rfc2459.GeneralName,
    mandatory "serialNumber" INTEGER]

/-- `OldCertId ::=` -/
def OldCertId : Ty :=
  CertId

/-- `ProtocolEncrKey ::=` -/
def ProtocolEncrKey : Ty :=
  Std.Rfc2459.SubjectPublicKeyInfo

/-- `UTF8Pairs ::=` -/
def UTF8Pairs : Ty :=
  UTF8String

/-- `CertReq ::=` -/
def CertReq : Ty :=
  CertRequest

/-- Classes of rfc2511.py and the types of the standard they implement. -/
def entries : List Entry :=
  [⟨"rfc2511.GeneralName", Verif.Rfc2511.GeneralName, Std.Rfc2459.GeneralName, (.refused [129, 0]), true⟩,
   ⟨"rfc2511.UTF8Pairs", Verif.Rfc2511.UTF8Pairs, UTF8Pairs, .same, false⟩,
   ⟨"rfc2511.ProtocolEncrKey", Verif.Rfc2511.ProtocolEncrKey, ProtocolEncrKey, .same, false⟩,
   ⟨"rfc2511.CertId", Verif.Rfc2511.CertId, CertId, (.refused [48, 5, 129, 0, 2, 1, 0]), true⟩,
   ⟨"rfc2511.OldCertId", Verif.Rfc2511.OldCertId, OldCertId, (.refused [48, 5, 129, 0, 2, 1, 0]), true⟩,
   ⟨"rfc2511.KeyGenParameters", Verif.Rfc2511.KeyGenParameters, KeyGenParameters, .same, false⟩,
   ⟨"rfc2511.EncryptedValue", Verif.Rfc2511.EncryptedValue, EncryptedValue, .same, false⟩,
   ⟨"rfc2511.EncryptedKey", Verif.Rfc2511.EncryptedKey, EncryptedKey, .relaxed, false⟩,
   ⟨"rfc2511.PKIArchiveOptions", Verif.Rfc2511.PKIArchiveOptions, PKIArchiveOptions, .relaxed, false⟩,
   ⟨"rfc2511.SinglePubInfo", Verif.Rfc2511.SinglePubInfo, SinglePubInfo, (.refused [48, 5, 2, 1, 0, 129, 0]), true⟩,
   ⟨"rfc2511.PKIPublicationInfo", Verif.Rfc2511.PKIPublicationInfo, PKIPublicationInfo, (.refused [48, 12, 2, 1, 0, 48, 7, 48, 5, 2, 1, 0, 134, 0]), true⟩,
   ⟨"rfc2511.Authenticator", Verif.Rfc2511.Authenticator, Authenticator, .same, false⟩,
   ⟨"rfc2511.RegToken", Verif.Rfc2511.RegToken, RegToken, .same, false⟩,
   ⟨"rfc2511.SubsequentMessage", Verif.Rfc2511.SubsequentMessage, SubsequentMessage, .same, false⟩,
   ⟨"rfc2511.POPOPrivKey", Verif.Rfc2511.POPOPrivKey, POPOPrivKey, .same, false⟩,
   ⟨"rfc2511.PBMParameter", Verif.Rfc2511.PBMParameter, PBMParameter, .same, false⟩,
   ⟨"rfc2511.PKMACValue", Verif.Rfc2511.PKMACValue, PKMACValue, .same, false⟩,
   ⟨"rfc2511.POPOSigningKeyInput", Verif.Rfc2511.POPOSigningKeyInput, POPOSigningKeyInput, (.refused [48, 14, 160, 2, 129, 0, 48, 8, 48, 3, 6, 1, 43, 3, 1, 0]), true⟩,
   ⟨"rfc2511.POPOSigningKey", Verif.Rfc2511.POPOSigningKey, POPOSigningKey, (.refused [48, 24, 160, 14, 160, 2, 134, 0, 48, 8, 48, 3, 6, 1, 43, 3, 1, 0, 48, 3, 6, 1, 43, 3, 1, 0]), true⟩,
   ⟨"rfc2511.ProofOfPossession", Verif.Rfc2511.ProofOfPossession, ProofOfPossession, (.refused [161, 24, 160, 14, 160, 2, 134, 0, 48, 8, 48, 3, 6, 1, 43, 3, 1, 0, 48, 3, 6, 1, 43, 3, 1, 0]), true⟩,
   ⟨"rfc2511.Controls", Verif.Rfc2511.Controls, Controls, .same, false⟩,
   ⟨"rfc2511.OptionalValidity", Verif.Rfc2511.OptionalValidity, OptionalValidity, .same, false⟩,
   ⟨"rfc2511.CertTemplate", Verif.Rfc2511.CertTemplate, CertTemplate, .relaxed, false⟩,
   ⟨"rfc2511.CertRequest", Verif.Rfc2511.CertRequest, CertRequest, .relaxed, false⟩,
   ⟨"rfc2511.CertReq", Verif.Rfc2511.CertReq, CertReq, .relaxed, false⟩,
   ⟨"rfc2511.CertReqMsg", Verif.Rfc2511.CertReqMsg, CertReqMsg, (.refused [48, 33, 48, 5, 2, 1, 0, 48, 0, 161, 24, 160, 14, 160, 2, 134, 0, 48, 8, 48, 3, 6, 1, 43, 3, 1, 0, 48, 3, 6, 1, 43, 3, 1, 0]), true⟩,
   ⟨"rfc2511.CertReqMessages", Verif.Rfc2511.CertReqMessages, CertReqMessages, (.refused [48, 35, 48, 33, 48, 5, 2, 1, 0, 48, 0, 161, 24, 160, 14, 160, 2, 134, 0, 48, 8, 48, 3, 6, 1, 43, 3, 1, 0, 48, 3, 6, 1, 43, 3, 1, 0]), true⟩]

/-- Classes of rfc2511.py the transcription of the standard has no type for. -/
def beyond : List String :=
  []

/-- Constants of rfc2511.py and the values the standard gives them. -/
def constants : List Constant :=
  [⟨"rfc2511.id_pkix", Verif.Rfc2511.id_pkix, OBJECT_IDENTIFIER, .oid [1, 3, 6, 1, 5, 5, 7], true⟩,
   ⟨"rfc2511.id_pkip", Verif.Rfc2511.id_pkip, OBJECT_IDENTIFIER, .oid [1, 3, 6, 1, 5, 5, 7, 5], true⟩,
   ⟨"rfc2511.id_regCtrl", Verif.Rfc2511.id_regCtrl, OBJECT_IDENTIFIER, .oid [1, 3, 6, 1, 5, 5, 7, 5, 1], true⟩,
   ⟨"rfc2511.id_regCtrl_regToken", Verif.Rfc2511.id_regCtrl_regToken, OBJECT_IDENTIFIER, .oid [1, 3, 6, 1, 5, 5, 7, 5, 1, 1], true⟩,
   ⟨"rfc2511.id_regCtrl_authenticator", Verif.Rfc2511.id_regCtrl_authenticator, OBJECT_IDENTIFIER, .oid [1, 3, 6, 1, 5, 5, 7, 5, 1, 2], true⟩,
   ⟨"rfc2511.id_regCtrl_pkiPublicationInfo", Verif.Rfc2511.id_regCtrl_pkiPublicationInfo, OBJECT_IDENTIFIER, .oid [1, 3, 6, 1, 5, 5, 7, 5, 1, 3], true⟩,
   ⟨"rfc2511.id_regCtrl_pkiArchiveOptions", Verif.Rfc2511.id_regCtrl_pkiArchiveOptions, OBJECT_IDENTIFIER, .oid [1, 3, 6, 1, 5, 5, 7, 5, 1, 4], true⟩,
   ⟨"rfc2511.id_regCtrl_oldCertID", Verif.Rfc2511.id_regCtrl_oldCertID, OBJECT_IDENTIFIER, .oid [1, 3, 6, 1, 5, 5, 7, 5, 1, 5], true⟩,
   ⟨"rfc2511.id_regCtrl_protocolEncrKey", Verif.Rfc2511.id_regCtrl_protocolEncrKey, OBJECT_IDENTIFIER, .oid [1, 3, 6, 1, 5, 5, 7, 5, 1, 6], true⟩,
   ⟨"rfc2511.id_regInfo", Verif.Rfc2511.id_regInfo, OBJECT_IDENTIFIER, .oid [1, 3, 6, 1, 5, 5, 7, 5, 2], true⟩,
   ⟨"rfc2511.id_regInfo_utf8Pairs", Verif.Rfc2511.id_regInfo_utf8Pairs, OBJECT_IDENTIFIER, .oid [1, 3, 6, 1, 5, 5, 7, 5, 2, 1], true⟩,
   ⟨"rfc2511.id_regInfo_certReq", Verif.Rfc2511.id_regInfo_certReq, OBJECT_IDENTIFIER, .oid [1, 3, 6, 1, 5, 5, 7, 5, 2, 2], true⟩]

/-- Constants of rfc2511.py the transcription of the standard has no value for. -/
def others : List String :=
  []

def standard : Standard := ⟨Verif.Rfc2511.asModule, entries, beyond, constants, others⟩

end Rfc2511
end Std
end Verif
