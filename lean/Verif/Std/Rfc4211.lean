import Verif.Spec.Grade
import Verif.Gen.Rfc4211
import Verif.Std.Rfc3280
import Verif.Std.Rfc3852

/-! The ASN.1 of tools/std/rfc4211.asn1 (generated by tools/stdgen.py). -/

namespace Verif
namespace Std
namespace Rfc4211

open Asn1 Spec.X680

/-- `OptionalValidity ::=` -/
def OptionalValidity : Ty :=
  SEQUENCE [
    optional "notBefore" (implicit .context 0 Std.Rfc3280.Time),
    optional "notAfter" (implicit .context 1 Std.Rfc3280.Time)]

/-- `CertTemplate ::=` -/
def CertTemplate : Ty :=
  SEQUENCE [
    optional "version" (implicit .context 0 Std.Rfc3280.Version),
    optional "serialNumber" (implicit .context 1 INTEGER),
    optional "signingAlg" (implicit .context 2 Std.Rfc3280.AlgorithmIdentifier),
    optional "issuer" (implicit .context 3 Std.Rfc3280.Name),
    optional "validity" (implicit .context 4 OptionalValidity),
    optional "subject" (implicit .context 5 Std.Rfc3280.Name),
    optional "publicKey" (implicit .context 6 Std.Rfc3280.SubjectPublicKeyInfo),
    optional "issuerUID" (implicit .context 7 Std.Rfc3280.UniqueIdentifier),
    optional "subjectUID" (implicit .context 8 Std.Rfc3280.UniqueIdentifier),
    optional "extensions" (implicit .context 9 Std.Rfc3280.Extensions)]

/-- `Controls ::=` -/
def Controls : Ty :=
  constrained (SIZE_MAX 1) (SEQUENCE_OF Std.Rfc3280.AttributeTypeAndValue)

/-- `CertRequest ::=` -/
def CertRequest : Ty :=
  SEQUENCE [
    mandatory "certReqId" INTEGER,
    mandatory "certTemplate" CertTemplate,
    optional "controls" Controls]

/-- `PKMACValue ::=` -/
def PKMACValue : Ty :=
  SEQUENCE [
    mandatory "algId" Std.Rfc3280.AlgorithmIdentifier,
    mandatory "value" BIT_STRING]

/-- `POPOSigningKeyInput ::=` -/
def POPOSigningKeyInput : Ty :=
  SEQUENCE [
    mandatory "authInfo" (CHOICE [
      mandatory "sender" (implicit .context 0 Std.Rfc3280.GeneralName),
      mandatory "publicKeyMAC" PKMACValue]),
    mandatory "publicKey" Std.Rfc3280.SubjectPublicKeyInfo]

/-- `POPOSigningKey ::=` -/
def POPOSigningKey : Ty :=
  SEQUENCE [
    optional "poposkInput" (implicit .context 0 POPOSigningKeyInput),
    mandatory "algorithmIdentifier" Std.Rfc3280.AlgorithmIdentifier,
    mandatory "signature" BIT_STRING]

/-- `SubsequentMessage ::=` -/
def SubsequentMessage : Ty :=
  named [("encrCert", 0), ("challengeResp", 1)] INTEGER

/-- `POPOPrivKey ::=` -/
def POPOPrivKey : Ty :=
  CHOICE [
    mandatory "thisMessage" (implicit .context 0 BIT_STRING),
    mandatory "subsequentMessage" (implicit .context 1 SubsequentMessage),
    mandatory "dhMAC" (implicit .context 2 BIT_STRING),
    mandatory "agreeMAC" (implicit .context 3 PKMACValue),
    mandatory "encryptedKey" (implicit .context 4 Std.Rfc3852.EnvelopedData)]

/-- `ProofOfPossession ::=` -/
def ProofOfPossession : Ty :=
  CHOICE [
    mandatory "raVerified" (implicit .context 0 NULL),
    mandatory "signature" (implicit .context 1 POPOSigningKey),
    mandatory "keyEncipherment" (implicit .context 2 POPOPrivKey),
    mandatory "keyAgreement" (implicit .context 3 POPOPrivKey)]

/-- `CertReqMsg ::=` -/
def CertReqMsg : Ty :=
  SEQUENCE [
    mandatory "certReq" CertRequest,
    optional "popo" ProofOfPossession,
    optional "regInfo" (constrained (SIZE_MAX 1) (SEQUENCE_OF Std.Rfc3280.AttributeTypeAndValue))]

/-- `CertReqMessages ::=` -/
def CertReqMessages : Ty :=
  constrained (SIZE_MAX 1) (SEQUENCE_OF CertReqMsg)

/-- `PBMParameter ::=` -/
def PBMParameter : Ty :=
  SEQUENCE [
    mandatory "salt" OCTET_STRING,
    mandatory "owf" Std.Rfc3280.AlgorithmIdentifier,
    mandatory "iterationCount" INTEGER,
    mandatory "mac" Std.Rfc3280.AlgorithmIdentifier]

/-- `DHBMParameter ::=` -/
def DHBMParameter : Ty :=
  SEQUENCE [
    mandatory "owf" Std.Rfc3280.AlgorithmIdentifier,
    mandatory "mac" Std.Rfc3280.AlgorithmIdentifier]

/-- `RegToken ::=` -/
def RegToken : Ty :=
  UTF8String

/-- `Authenticator ::=` -/
def Authenticator : Ty :=
  UTF8String

/-- `SinglePubInfo ::=` -/
def SinglePubInfo : Ty :=
  SEQUENCE [
    mandatory "pubMethod" (named [("dontCare", 0), ("x500", 1), ("web", 2), ("ldap", 3)] INTEGER),
    optional "pubLocation" Std.Rfc3280.GeneralName]

/-- `PKIPublicationInfo ::=` -/
def PKIPublicationInfo : Ty :=
  SEQUENCE [
    mandatory "action" (named [("dontPublish", 0), ("pleasePublish", 1)] INTEGER),
    optional "pubInfos" (constrained (SIZE_MAX 1) (SEQUENCE_OF SinglePubInfo))]

/-- `EncryptedValue ::=` -/
def EncryptedValue : Ty :=
  SEQUENCE [
    optional "intendedAlg" (implicit .context 0 Std.Rfc3280.AlgorithmIdentifier),
    optional "symmAlg" (implicit .context 1 Std.Rfc3280.AlgorithmIdentifier),
    optional "encSymmKey" (implicit .context 2 BIT_STRING),
    optional "keyAlg" (implicit .context 3 Std.Rfc3280.AlgorithmIdentifier),
    optional "valueHint" (implicit .context 4 OCTET_STRING),
    mandatory "encValue" BIT_STRING]

/-- `EncryptedKey ::=` -/
def EncryptedKey : Ty :=
  CHOICE [
    mandatory "encryptedValue" EncryptedValue,
    mandatory "envelopedData" (implicit .context 0 Std.Rfc3852.EnvelopedData)]

/-- `KeyGenParameters ::=` -/
def KeyGenParameters : Ty :=
  OCTET_STRING

/-- `PKIArchiveOptions ::=` -/
def PKIArchiveOptions : Ty :=
  CHOICE [
    mandatory "encryptedPrivKey" (implicit .context 0 EncryptedKey),
    mandatory "keyGenParameters" (implicit .context 1 KeyGenParameters),
    mandatory "archiveRemGenPrivKey" (implicit .context 2 BOOLEAN)]

/-- `CertId ::=` -/
def CertId : Ty :=
  SEQUENCE [
    mandatory "issuer" Std.Rfc3280.GeneralName,
    mandatory "serialNumber" INTEGER]

/-- `OldCertId ::=` -/
def OldCertId : Ty :=
  CertId

/-- `ProtocolEncrKey ::=` -/
def ProtocolEncrKey : Ty :=
  Std.Rfc3280.SubjectPublicKeyInfo

/-- `UTF8Pairs ::=` -/
def UTF8Pairs : Ty :=
  UTF8String

/-- `CertReq ::=` -/
def CertReq : Ty :=
  CertRequest

/-- `Attributes ::=` -/
def Attributes : Ty :=
  SET_OF Std.Rfc3280.Attribute

/-- `PrivateKeyInfo ::=` -/
def PrivateKeyInfo : Ty :=
  SEQUENCE [
    mandatory "version" INTEGER,
    mandatory "privateKeyAlgorithm" Std.Rfc3280.AlgorithmIdentifier,
    mandatory "privateKey" OCTET_STRING,
    optional "attributes" (implicit .context 0 Attributes)]

/-- `EncKeyWithID ::=` -/
def EncKeyWithID : Ty :=
  SEQUENCE [
    mandatory "privateKey" PrivateKeyInfo,
    optional "identifier" (CHOICE [
      mandatory "string" UTF8String,
      mandatory "generalName" Std.Rfc3280.GeneralName])]

/-- Classes of rfc4211.py and the types of the standard they implement. -/
def entries : List Entry :=
  [⟨"rfc4211.SinglePubInfo", Verif.Rfc4211.SinglePubInfo, SinglePubInfo, .same, false⟩,
   ⟨"rfc4211.UTF8Pairs", Verif.Rfc4211.UTF8Pairs, UTF8Pairs, .same, false⟩,
   ⟨"rfc4211.PKMACValue", Verif.Rfc4211.PKMACValue, PKMACValue, .same, false⟩,
   ⟨"rfc4211.POPOSigningKeyInput", Verif.Rfc4211.POPOSigningKeyInput, POPOSigningKeyInput, .same, false⟩,
   ⟨"rfc4211.POPOSigningKey", Verif.Rfc4211.POPOSigningKey, POPOSigningKey, .same, false⟩,
   ⟨"rfc4211.Attributes", Verif.Rfc4211.Attributes, Attributes, .same, false⟩,
   ⟨"rfc4211.PrivateKeyInfo", Verif.Rfc4211.PrivateKeyInfo, PrivateKeyInfo, .same, false⟩,
   ⟨"rfc4211.EncryptedValue", Verif.Rfc4211.EncryptedValue, EncryptedValue, .same, false⟩,
   ⟨"rfc4211.EncryptedKey", Verif.Rfc4211.EncryptedKey, EncryptedKey, .same, false⟩,
   ⟨"rfc4211.KeyGenParameters", Verif.Rfc4211.KeyGenParameters, KeyGenParameters, .same, false⟩,
   ⟨"rfc4211.PKIArchiveOptions", Verif.Rfc4211.PKIArchiveOptions, PKIArchiveOptions, .same, false⟩,
   ⟨"rfc4211.ProtocolEncrKey", Verif.Rfc4211.ProtocolEncrKey, ProtocolEncrKey, .same, false⟩,
   ⟨"rfc4211.Authenticator", Verif.Rfc4211.Authenticator, Authenticator, .same, false⟩,
   ⟨"rfc4211.SubsequentMessage", Verif.Rfc4211.SubsequentMessage, SubsequentMessage, .same, false⟩,
   ⟨"rfc4211.AttributeTypeAndValue", Verif.Rfc4211.AttributeTypeAndValue, Std.Rfc3280.AttributeTypeAndValue, .same, false⟩,
   ⟨"rfc4211.POPOPrivKey", Verif.Rfc4211.POPOPrivKey, POPOPrivKey, .same, false⟩,
   ⟨"rfc4211.ProofOfPossession", Verif.Rfc4211.ProofOfPossession, ProofOfPossession, .same, false⟩,
   ⟨"rfc4211.OptionalValidity", Verif.Rfc4211.OptionalValidity, OptionalValidity, .same, false⟩,
   ⟨"rfc4211.CertTemplate", Verif.Rfc4211.CertTemplate, CertTemplate, .same, false⟩,
   ⟨"rfc4211.Controls", Verif.Rfc4211.Controls, Controls, .same, false⟩,
   ⟨"rfc4211.CertRequest", Verif.Rfc4211.CertRequest, CertRequest, .same, false⟩,
   ⟨"rfc4211.CertReqMsg", Verif.Rfc4211.CertReqMsg, CertReqMsg, .relaxed, false⟩,
   ⟨"rfc4211.CertReqMessages", Verif.Rfc4211.CertReqMessages, CertReqMessages, .relaxed, false⟩,
   ⟨"rfc4211.CertReq", Verif.Rfc4211.CertReq, CertReq, .same, false⟩,
   ⟨"rfc4211.CertId", Verif.Rfc4211.CertId, CertId, .same, false⟩,
   ⟨"rfc4211.OldCertId", Verif.Rfc4211.OldCertId, OldCertId, .same, false⟩,
   ⟨"rfc4211.PKIPublicationInfo", Verif.Rfc4211.PKIPublicationInfo, PKIPublicationInfo, .relaxed, false⟩,
   ⟨"rfc4211.EncKeyWithID", Verif.Rfc4211.EncKeyWithID, EncKeyWithID, .same, false⟩,
   ⟨"rfc4211.PBMParameter", Verif.Rfc4211.PBMParameter, PBMParameter, .same, false⟩,
   ⟨"rfc4211.RegToken", Verif.Rfc4211.RegToken, RegToken, .same, false⟩]

/-- Classes of rfc4211.py the transcription of the standard has no type for. -/
def beyond : List String :=
  []

/-- Constants of rfc4211.py and the values the standard gives them. -/
def constants : List Constant :=
  [⟨"rfc4211.id_pkix", Verif.Rfc4211.id_pkix, OBJECT_IDENTIFIER, .oid [1, 3, 6, 1, 5, 5, 7], true⟩,
   ⟨"rfc4211.id_pkip", Verif.Rfc4211.id_pkip, OBJECT_IDENTIFIER, .oid [1, 3, 6, 1, 5, 5, 7, 5], true⟩,
   ⟨"rfc4211.id_regCtrl", Verif.Rfc4211.id_regCtrl, OBJECT_IDENTIFIER, .oid [1, 3, 6, 1, 5, 5, 7, 5, 1], true⟩,
   ⟨"rfc4211.id_regCtrl_authenticator", Verif.Rfc4211.id_regCtrl_authenticator, OBJECT_IDENTIFIER, .oid [1, 3, 6, 1, 5, 5, 7, 5, 1, 2], true⟩,
   ⟨"rfc4211.id_regInfo", Verif.Rfc4211.id_regInfo, OBJECT_IDENTIFIER, .oid [1, 3, 6, 1, 5, 5, 7, 5, 2], true⟩,
   ⟨"rfc4211.id_regInfo_certReq", Verif.Rfc4211.id_regInfo_certReq, OBJECT_IDENTIFIER, .oid [1, 3, 6, 1, 5, 5, 7, 5, 2, 2], true⟩,
   ⟨"rfc4211.id_regCtrl_pkiPublicationInfo", Verif.Rfc4211.id_regCtrl_pkiPublicationInfo, OBJECT_IDENTIFIER, .oid [1, 3, 6, 1, 5, 5, 7, 5, 1, 3], true⟩,
   ⟨"rfc4211.id_regCtrl_protocolEncrKey", Verif.Rfc4211.id_regCtrl_protocolEncrKey, OBJECT_IDENTIFIER, .oid [1, 3, 6, 1, 5, 5, 7, 5, 1, 6], true⟩,
   ⟨"rfc4211.id_regCtrl_oldCertID", Verif.Rfc4211.id_regCtrl_oldCertID, OBJECT_IDENTIFIER, .oid [1, 3, 6, 1, 5, 5, 7, 5, 1, 5], true⟩,
   ⟨"rfc4211.id_smime", Verif.Rfc4211.id_smime, OBJECT_IDENTIFIER, .oid [1, 2, 840, 113549, 1, 9, 16], true⟩,
   ⟨"rfc4211.id_regCtrl_regToken", Verif.Rfc4211.id_regCtrl_regToken, OBJECT_IDENTIFIER, .oid [1, 3, 6, 1, 5, 5, 7, 5, 1, 1], true⟩,
   ⟨"rfc4211.id_regCtrl_pkiArchiveOptions", Verif.Rfc4211.id_regCtrl_pkiArchiveOptions, OBJECT_IDENTIFIER, .oid [1, 3, 6, 1, 5, 5, 7, 5, 1, 4], true⟩,
   ⟨"rfc4211.id_regInfo_utf8Pairs", Verif.Rfc4211.id_regInfo_utf8Pairs, OBJECT_IDENTIFIER, .oid [1, 3, 6, 1, 5, 5, 7, 5, 2, 1], true⟩,
   ⟨"rfc4211.id_ct", Verif.Rfc4211.id_ct, OBJECT_IDENTIFIER, .oid [1, 2, 840, 113549, 1, 9, 16, 1], true⟩,
   ⟨"rfc4211.id_ct_encKeyWithID", Verif.Rfc4211.id_ct_encKeyWithID, OBJECT_IDENTIFIER, .oid [1, 2, 840, 113549, 1, 9, 16, 1, 21], true⟩]

/-- Constants of rfc4211.py the transcription of the standard has no value for. -/
def others : List String :=
  []

def standard : Standard := ⟨Verif.Rfc4211.asModule, entries, beyond, constants, others⟩

end Rfc4211
end Std
end Verif
