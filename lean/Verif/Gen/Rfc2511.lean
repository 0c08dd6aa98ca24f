import Verif.Py.Obj
import Verif.Gen.Rfc2315
import Verif.Gen.Rfc2459

/-! Transcription of /repo/pyasn1_modules/rfc2511.py (generated by tools/gen.py). -/

namespace Verif
namespace Rfc2511

/-- rfc2511.py:17 -/
def MAX : Py.Bound :=
  .inf

/-- rfc2511.py:19 -/
def id_pkix : Py.Obj :=
  (Py.univ.ObjectIdentifier.call.callArcs [1, 3, 6, 1, 5, 5, 7])

/-- rfc2511.py:20 -/
def id_pkip : Py.Obj :=
  (Py.univ.ObjectIdentifier.call.callArcs [1, 3, 6, 1, 5, 5, 7, 5])

/-- rfc2511.py:21 -/
def id_regCtrl : Py.Obj :=
  (Py.univ.ObjectIdentifier.call.callArcs [1, 3, 6, 1, 5, 5, 7, 5, 1])

/-- rfc2511.py:22 -/
def id_regCtrl_regToken : Py.Obj :=
  (Py.univ.ObjectIdentifier.call.callArcs [1, 3, 6, 1, 5, 5, 7, 5, 1, 1])

/-- rfc2511.py:23 -/
def id_regCtrl_authenticator : Py.Obj :=
  (Py.univ.ObjectIdentifier.call.callArcs [1, 3, 6, 1, 5, 5, 7, 5, 1, 2])

/-- rfc2511.py:24 -/
def id_regCtrl_pkiPublicationInfo : Py.Obj :=
  (Py.univ.ObjectIdentifier.call.callArcs [1, 3, 6, 1, 5, 5, 7, 5, 1, 3])

/-- rfc2511.py:25 -/
def id_regCtrl_pkiArchiveOptions : Py.Obj :=
  (Py.univ.ObjectIdentifier.call.callArcs [1, 3, 6, 1, 5, 5, 7, 5, 1, 4])

/-- rfc2511.py:26 -/
def id_regCtrl_oldCertID : Py.Obj :=
  (Py.univ.ObjectIdentifier.call.callArcs [1, 3, 6, 1, 5, 5, 7, 5, 1, 5])

/-- rfc2511.py:27 -/
def id_regCtrl_protocolEncrKey : Py.Obj :=
  (Py.univ.ObjectIdentifier.call.callArcs [1, 3, 6, 1, 5, 5, 7, 5, 1, 6])

/-- rfc2511.py:28 -/
def id_regInfo : Py.Obj :=
  (Py.univ.ObjectIdentifier.call.callArcs [1, 3, 6, 1, 5, 5, 7, 5, 2])

/-- rfc2511.py:29 -/
def id_regInfo_utf8Pairs : Py.Obj :=
  (Py.univ.ObjectIdentifier.call.callArcs [1, 3, 6, 1, 5, 5, 7, 5, 2, 1])

/-- rfc2511.py:30 -/
def id_regInfo_certReq : Py.Obj :=
  (Py.univ.ObjectIdentifier.call.callArcs [1, 3, 6, 1, 5, 5, 7, 5, 2, 2])

/-- rfc2511.py:35-36 `class GeneralName(univ.OctetString)` -/
def GeneralName : Py.Obj :=
  Py.univ.OctetString

/-- rfc2511.py:41-42 `class UTF8Pairs(char.UTF8String)` -/
def UTF8Pairs : Py.Obj :=
  Py.char.UTF8String

/-- rfc2511.py:45-46 `class ProtocolEncrKey(SubjectPublicKeyInfo)` -/
def ProtocolEncrKey : Py.Obj :=
  Rfc2459.SubjectPublicKeyInfo

/-- rfc2511.py:49-53 `class CertId(univ.Sequence)` -/
def CertId : Py.Obj :=
  Py.univ.Sequence.setComponentType (Py.NamedTypes [
    Py.NamedType "issuer" Rfc2511.GeneralName.call,
    Py.NamedType "serialNumber" Py.univ.Integer.call])

/-- rfc2511.py:56-57 `class OldCertId(CertId)` -/
def OldCertId : Py.Obj :=
  Rfc2511.CertId

/-- rfc2511.py:60-61 `class KeyGenParameters(univ.OctetString)` -/
def KeyGenParameters : Py.Obj :=
  Py.univ.OctetString

/-- rfc2511.py:64-77 `class EncryptedValue(univ.Sequence)` -/
def EncryptedValue : Py.Obj :=
  Py.univ.Sequence.setComponentType (Py.NamedTypes [
    Py.OptionalNamedType "intendedAlg" (Rfc2459.AlgorithmIdentifier.call.implicitTag (Py.Tag .context true 0)),
    Py.OptionalNamedType "symmAlg" (Rfc2459.AlgorithmIdentifier.call.implicitTag (Py.Tag .context true 1)),
    Py.OptionalNamedType "encSymmKey" (Py.univ.BitString.call.implicitTag (Py.Tag .context true 2)),
    Py.OptionalNamedType "keyAlg" (Rfc2459.AlgorithmIdentifier.call.implicitTag (Py.Tag .context true 3)),
    Py.OptionalNamedType "valueHint" (Py.univ.OctetString.call.implicitTag (Py.Tag .context true 4)),
    Py.NamedType "encValue" Py.univ.BitString.call])

/-- rfc2511.py:80-85 `class EncryptedKey(univ.Choice)` -/
def EncryptedKey : Py.Obj :=
  Py.univ.Choice.setComponentType (Py.NamedTypes [
    Py.NamedType "encryptedValue" Rfc2511.EncryptedValue.call,
    Py.NamedType "envelopedData" (Rfc2315.EnvelopedData.call.implicitTag (Py.Tag .context true 0))])

/-- rfc2511.py:88-96 `class PKIArchiveOptions(univ.Choice)` -/
def PKIArchiveOptions : Py.Obj :=
  Py.univ.Choice.setComponentType (Py.NamedTypes [
    Py.NamedType "encryptedPrivKey" (Rfc2511.EncryptedKey.call.implicitTag (Py.Tag .context true 0)),
    Py.NamedType "keyGenParameters" (Rfc2511.KeyGenParameters.call.implicitTag (Py.Tag .context false 1)),
    Py.NamedType "archiveRemGenPrivKey" (Py.univ.Boolean.call.implicitTag (Py.Tag .context false 2))])

/-- rfc2511.py:99-104 `class SinglePubInfo(univ.Sequence)` -/
def SinglePubInfo : Py.Obj :=
  Py.univ.Sequence.setComponentType (Py.NamedTypes [
    Py.NamedType "pubMethod" (Py.univ.Integer.call.setNamedValues (Py.NamedValues [("dontCare", 0), ("x500", 1), ("web", 2), ("ldap", 3)])),
    Py.OptionalNamedType "pubLocation" Rfc2511.GeneralName.call])

/-- rfc2511.py:107-113 `class PKIPublicationInfo(univ.Sequence)` -/
def PKIPublicationInfo : Py.Obj :=
  Py.univ.Sequence.setComponentType (Py.NamedTypes [
    Py.NamedType "action" (Py.univ.Integer.call.setNamedValues (Py.NamedValues [("dontPublish", 0), ("pleasePublish", 1)])),
    Py.OptionalNamedType "pubInfos" ((Py.univ.SequenceOf.call.setComponentTypeOf Rfc2511.SinglePubInfo.call).addSizeSpec (Py.ValueSizeConstraint (.fin 1) Rfc2511.MAX))])

/-- rfc2511.py:116-117 `class Authenticator(char.UTF8String)` -/
def Authenticator : Py.Obj :=
  Py.char.UTF8String

/-- rfc2511.py:120-121 `class RegToken(char.UTF8String)` -/
def RegToken : Py.Obj :=
  Py.char.UTF8String

/-- rfc2511.py:124-128 `class SubsequentMessage(univ.Integer)` -/
def SubsequentMessage : Py.Obj :=
  Py.univ.Integer.setNamedValues (Py.NamedValues [("encrCert", 0), ("challengeResp", 1)])

/-- rfc2511.py:131-139 `class POPOPrivKey(univ.Choice)` -/
def POPOPrivKey : Py.Obj :=
  Py.univ.Choice.setComponentType (Py.NamedTypes [
    Py.NamedType "thisMessage" (Py.univ.BitString.call.implicitTag (Py.Tag .context false 0)),
    Py.NamedType "subsequentMessage" (Rfc2511.SubsequentMessage.call.implicitTag (Py.Tag .context false 1)),
    Py.NamedType "dhMAC" (Py.univ.BitString.call.implicitTag (Py.Tag .context false 2))])

/-- rfc2511.py:142-148 `class PBMParameter(univ.Sequence)` -/
def PBMParameter : Py.Obj :=
  Py.univ.Sequence.setComponentType (Py.NamedTypes [
    Py.NamedType "salt" Py.univ.OctetString.call,
    Py.NamedType "owf" Rfc2459.AlgorithmIdentifier.call,
    Py.NamedType "iterationCount" Py.univ.Integer.call,
    Py.NamedType "mac" Rfc2459.AlgorithmIdentifier.call])

/-- rfc2511.py:151-155 `class PKMACValue(univ.Sequence)` -/
def PKMACValue : Py.Obj :=
  Py.univ.Sequence.setComponentType (Py.NamedTypes [
    Py.NamedType "algId" Rfc2459.AlgorithmIdentifier.call,
    Py.NamedType "value" Py.univ.BitString.call])

/-- rfc2511.py:158-171 `class POPOSigningKeyInput(univ.Sequence)` -/
def POPOSigningKeyInput : Py.Obj :=
  Py.univ.Sequence.setComponentType (Py.NamedTypes [
    Py.NamedType "authInfo" (Py.univ.Choice.call.setComponentType (Py.NamedTypes [
    Py.NamedType "sender" (Rfc2511.GeneralName.call.implicitTag (Py.Tag .context false 0)),
    Py.NamedType "publicKeyMAC" Rfc2511.PKMACValue.call])),
    Py.NamedType "publicKey" Rfc2459.SubjectPublicKeyInfo.call])

/-- rfc2511.py:174-180 `class POPOSigningKey(univ.Sequence)` -/
def POPOSigningKey : Py.Obj :=
  Py.univ.Sequence.setComponentType (Py.NamedTypes [
    Py.OptionalNamedType "poposkInput" (Rfc2511.POPOSigningKeyInput.call.implicitTag (Py.Tag .context true 0)),
    Py.NamedType "algorithmIdentifier" Rfc2459.AlgorithmIdentifier.call,
    Py.NamedType "signature" Py.univ.BitString.call])

/-- rfc2511.py:183-193 `class ProofOfPossession(univ.Choice)` -/
def ProofOfPossession : Py.Obj :=
  Py.univ.Choice.setComponentType (Py.NamedTypes [
    Py.NamedType "raVerified" (Py.univ.Null.call.implicitTag (Py.Tag .context false 0)),
    Py.NamedType "signature" (Rfc2511.POPOSigningKey.call.implicitTag (Py.Tag .context true 1)),
    Py.NamedType "keyEncipherment" (Rfc2511.POPOPrivKey.call.implicitTag (Py.Tag .context true 2)),
    Py.NamedType "keyAgreement" (Rfc2511.POPOPrivKey.call.implicitTag (Py.Tag .context true 3))])

/-- rfc2511.py:196-198 `class Controls(univ.SequenceOf)` -/
def Controls : Py.Obj :=
  (Py.univ.SequenceOf.setComponentTypeOf Rfc2459.AttributeTypeAndValue.call).setSizeSpec (Py.univ.SequenceOf.sizeSpec.add (Py.ValueSizeConstraint (.fin 1) Rfc2511.MAX))

/-- rfc2511.py:201-207 `class OptionalValidity(univ.Sequence)` -/
def OptionalValidity : Py.Obj :=
  Py.univ.Sequence.setComponentType (Py.NamedTypes [
    Py.OptionalNamedType "notBefore" (Rfc2459.Time.call.implicitTag (Py.Tag .context false 0)),
    Py.OptionalNamedType "notAfter" (Rfc2459.Time.call.implicitTag (Py.Tag .context false 1))])

/-- rfc2511.py:210-232 `class CertTemplate(univ.Sequence)` -/
def CertTemplate : Py.Obj :=
  Py.univ.Sequence.setComponentType (Py.NamedTypes [
    Py.OptionalNamedType "version" (Rfc2459.Version.call.implicitTag (Py.Tag .context false 0)),
    Py.OptionalNamedType "serialNumber" (Py.univ.Integer.call.implicitTag (Py.Tag .context false 1)),
    Py.OptionalNamedType "signingAlg" (Rfc2459.AlgorithmIdentifier.call.implicitTag (Py.Tag .context true 2)),
    Py.OptionalNamedType "issuer" (Rfc2459.Name.call.implicitTag (Py.Tag .context true 3)),
    Py.OptionalNamedType "validity" (Rfc2511.OptionalValidity.call.implicitTag (Py.Tag .context true 4)),
    Py.OptionalNamedType "subject" (Rfc2459.Name.call.implicitTag (Py.Tag .context true 5)),
    Py.OptionalNamedType "publicKey" (Rfc2459.SubjectPublicKeyInfo.call.implicitTag (Py.Tag .context true 6)),
    Py.OptionalNamedType "issuerUID" (Rfc2459.UniqueIdentifier.call.implicitTag (Py.Tag .context false 7)),
    Py.OptionalNamedType "subjectUID" (Rfc2459.UniqueIdentifier.call.implicitTag (Py.Tag .context false 8)),
    Py.OptionalNamedType "extensions" (Rfc2459.Extensions.call.implicitTag (Py.Tag .context true 9))])

/-- rfc2511.py:235-240 `class CertRequest(univ.Sequence)` -/
def CertRequest : Py.Obj :=
  Py.univ.Sequence.setComponentType (Py.NamedTypes [
    Py.NamedType "certReqId" Py.univ.Integer.call,
    Py.NamedType "certTemplate" Rfc2511.CertTemplate.call,
    Py.OptionalNamedType "controls" Rfc2511.Controls.call])

/-- rfc2511.py:243-244 `class CertReq(CertRequest)` -/
def CertReq : Py.Obj :=
  Rfc2511.CertRequest

/-- rfc2511.py:247-253 `class CertReqMsg(univ.Sequence)` -/
def CertReqMsg : Py.Obj :=
  Py.univ.Sequence.setComponentType (Py.NamedTypes [
    Py.NamedType "certReq" Rfc2511.CertRequest.call,
    Py.OptionalNamedType "pop" Rfc2511.ProofOfPossession.call,
    Py.OptionalNamedType "regInfo" ((Py.univ.SequenceOf.call.setComponentTypeOf Rfc2459.AttributeTypeAndValue.call).addSizeSpec (Py.ValueSizeConstraint (.fin 1) Rfc2511.MAX))])

/-- rfc2511.py:256-258 `class CertReqMessages(univ.SequenceOf)` -/
def CertReqMessages : Py.Obj :=
  (Py.univ.SequenceOf.setComponentTypeOf Rfc2511.CertReqMsg.call).setSizeSpec (Py.univ.SequenceOf.sizeSpec.add (Py.ValueSizeConstraint (.fin 1) Rfc2511.MAX))

/-- Modules of this package imported by rfc2511.py, in textual order. -/
def imports : List Py.Ident :=
  [(Py.mod 8 "rfc2315"), (Py.mod 6 "rfc2459")]

/-- Dictionary operations executed when rfc2511.py is imported, in program order. -/
def effects : List Py.Effect :=
  []

/-- ASN.1 types rfc2511.py binds at module level (final version of each name), plus nested classes. -/
def classes : List (String × Py.Obj) :=
  [("rfc2511.GeneralName", Rfc2511.GeneralName),
   ("rfc2511.UTF8Pairs", Rfc2511.UTF8Pairs),
   ("rfc2511.ProtocolEncrKey", Rfc2511.ProtocolEncrKey),
   ("rfc2511.CertId", Rfc2511.CertId),
   ("rfc2511.OldCertId", Rfc2511.OldCertId),
   ("rfc2511.KeyGenParameters", Rfc2511.KeyGenParameters),
   ("rfc2511.EncryptedValue", Rfc2511.EncryptedValue),
   ("rfc2511.EncryptedKey", Rfc2511.EncryptedKey),
   ("rfc2511.PKIArchiveOptions", Rfc2511.PKIArchiveOptions),
   ("rfc2511.SinglePubInfo", Rfc2511.SinglePubInfo),
   ("rfc2511.PKIPublicationInfo", Rfc2511.PKIPublicationInfo),
   ("rfc2511.Authenticator", Rfc2511.Authenticator),
   ("rfc2511.RegToken", Rfc2511.RegToken),
   ("rfc2511.SubsequentMessage", Rfc2511.SubsequentMessage),
   ("rfc2511.POPOPrivKey", Rfc2511.POPOPrivKey),
   ("rfc2511.PBMParameter", Rfc2511.PBMParameter),
   ("rfc2511.PKMACValue", Rfc2511.PKMACValue),
   ("rfc2511.POPOSigningKeyInput", Rfc2511.POPOSigningKeyInput),
   ("rfc2511.POPOSigningKey", Rfc2511.POPOSigningKey),
   ("rfc2511.ProofOfPossession", Rfc2511.ProofOfPossession),
   ("rfc2511.Controls", Rfc2511.Controls),
   ("rfc2511.OptionalValidity", Rfc2511.OptionalValidity),
   ("rfc2511.CertTemplate", Rfc2511.CertTemplate),
   ("rfc2511.CertRequest", Rfc2511.CertRequest),
   ("rfc2511.CertReq", Rfc2511.CertReq),
   ("rfc2511.CertReqMsg", Rfc2511.CertReqMsg),
   ("rfc2511.CertReqMessages", Rfc2511.CertReqMessages)]

/-- pyasn1 instances rfc2511.py binds at module level. -/
def objects : List (String × Py.Obj) :=
  [("rfc2511.id_pkix", Rfc2511.id_pkix),
   ("rfc2511.id_pkip", Rfc2511.id_pkip),
   ("rfc2511.id_regCtrl", Rfc2511.id_regCtrl),
   ("rfc2511.id_regCtrl_regToken", Rfc2511.id_regCtrl_regToken),
   ("rfc2511.id_regCtrl_authenticator", Rfc2511.id_regCtrl_authenticator),
   ("rfc2511.id_regCtrl_pkiPublicationInfo", Rfc2511.id_regCtrl_pkiPublicationInfo),
   ("rfc2511.id_regCtrl_pkiArchiveOptions", Rfc2511.id_regCtrl_pkiArchiveOptions),
   ("rfc2511.id_regCtrl_oldCertID", Rfc2511.id_regCtrl_oldCertID),
   ("rfc2511.id_regCtrl_protocolEncrKey", Rfc2511.id_regCtrl_protocolEncrKey),
   ("rfc2511.id_regInfo", Rfc2511.id_regInfo),
   ("rfc2511.id_regInfo_utf8Pairs", Rfc2511.id_regInfo_utf8Pairs),
   ("rfc2511.id_regInfo_certReq", Rfc2511.id_regInfo_certReq)]

/-- pyasn1 instances rfc2511.py fills in by item assignment. -/
def protos : List (String × Py.Proto) :=
  []

/-- Every place of rfc2511.py that instantiates a class of the package: where, the class as it is
at that point, and the class as it is when the import has finished. -/
def snapshots : List Py.Snapshot :=
  [⟨"rfc2511.py:51", Rfc2511.GeneralName, Rfc2511.GeneralName⟩,
   ⟨"rfc2511.py:66", Rfc2459.AlgorithmIdentifier, Rfc2459.AlgorithmIdentifier⟩,
   ⟨"rfc2511.py:68", Rfc2459.AlgorithmIdentifier, Rfc2459.AlgorithmIdentifier⟩,
   ⟨"rfc2511.py:72", Rfc2459.AlgorithmIdentifier, Rfc2459.AlgorithmIdentifier⟩,
   ⟨"rfc2511.py:82", Rfc2511.EncryptedValue, Rfc2511.EncryptedValue⟩,
   ⟨"rfc2511.py:83", Rfc2315.EnvelopedData, Rfc2315.EnvelopedData⟩,
   ⟨"rfc2511.py:90", Rfc2511.EncryptedKey, Rfc2511.EncryptedKey⟩,
   ⟨"rfc2511.py:92", Rfc2511.KeyGenParameters, Rfc2511.KeyGenParameters⟩,
   ⟨"rfc2511.py:103", Rfc2511.GeneralName, Rfc2511.GeneralName⟩,
   ⟨"rfc2511.py:111", Rfc2511.SinglePubInfo, Rfc2511.SinglePubInfo⟩,
   ⟨"rfc2511.py:135", Rfc2511.SubsequentMessage, Rfc2511.SubsequentMessage⟩,
   ⟨"rfc2511.py:145", Rfc2459.AlgorithmIdentifier, Rfc2459.AlgorithmIdentifier⟩,
   ⟨"rfc2511.py:147", Rfc2459.AlgorithmIdentifier, Rfc2459.AlgorithmIdentifier⟩,
   ⟨"rfc2511.py:153", Rfc2459.AlgorithmIdentifier, Rfc2459.AlgorithmIdentifier⟩,
   ⟨"rfc2511.py:164", Rfc2511.GeneralName, Rfc2511.GeneralName⟩,
   ⟨"rfc2511.py:166", Rfc2511.PKMACValue, Rfc2511.PKMACValue⟩,
   ⟨"rfc2511.py:170", Rfc2459.SubjectPublicKeyInfo, Rfc2459.SubjectPublicKeyInfo⟩,
   ⟨"rfc2511.py:176", Rfc2511.POPOSigningKeyInput, Rfc2511.POPOSigningKeyInput⟩,
   ⟨"rfc2511.py:178", Rfc2459.AlgorithmIdentifier, Rfc2459.AlgorithmIdentifier⟩,
   ⟨"rfc2511.py:187", Rfc2511.POPOSigningKey, Rfc2511.POPOSigningKey⟩,
   ⟨"rfc2511.py:189", Rfc2511.POPOPrivKey, Rfc2511.POPOPrivKey⟩,
   ⟨"rfc2511.py:191", Rfc2511.POPOPrivKey, Rfc2511.POPOPrivKey⟩,
   ⟨"rfc2511.py:197", Rfc2459.AttributeTypeAndValue, Rfc2459.AttributeTypeAndValue⟩,
   ⟨"rfc2511.py:204", Rfc2459.Time, Rfc2459.Time⟩,
   ⟨"rfc2511.py:206", Rfc2459.Time, Rfc2459.Time⟩,
   ⟨"rfc2511.py:212", Rfc2459.Version, Rfc2459.Version⟩,
   ⟨"rfc2511.py:216", Rfc2459.AlgorithmIdentifier, Rfc2459.AlgorithmIdentifier⟩,
   ⟨"rfc2511.py:218", Rfc2459.Name, Rfc2459.Name⟩,
   ⟨"rfc2511.py:220", Rfc2511.OptionalValidity, Rfc2511.OptionalValidity⟩,
   ⟨"rfc2511.py:222", Rfc2459.Name, Rfc2459.Name⟩,
   ⟨"rfc2511.py:224", Rfc2459.SubjectPublicKeyInfo, Rfc2459.SubjectPublicKeyInfo⟩,
   ⟨"rfc2511.py:226", Rfc2459.UniqueIdentifier, Rfc2459.UniqueIdentifier⟩,
   ⟨"rfc2511.py:228", Rfc2459.UniqueIdentifier, Rfc2459.UniqueIdentifier⟩,
   ⟨"rfc2511.py:230", Rfc2459.Extensions, Rfc2459.Extensions⟩,
   ⟨"rfc2511.py:238", Rfc2511.CertTemplate, Rfc2511.CertTemplate⟩,
   ⟨"rfc2511.py:239", Rfc2511.Controls, Rfc2511.Controls⟩,
   ⟨"rfc2511.py:249", Rfc2511.CertRequest, Rfc2511.CertRequest⟩,
   ⟨"rfc2511.py:250", Rfc2511.ProofOfPossession, Rfc2511.ProofOfPossession⟩,
   ⟨"rfc2511.py:251", Rfc2459.AttributeTypeAndValue, Rfc2459.AttributeTypeAndValue⟩,
   ⟨"rfc2511.py:257", Rfc2511.CertReqMsg, Rfc2511.CertReqMsg⟩]

/-- Functions rfc2511.py defines. -/
def builders : List (String × (List Py.OidArg → Py.Obj)) :=
  []

def asModule : Py.Module :=
  { id := (Py.mod 10 "rfc2511"), imports := imports, effects := effects, classes := classes, objects := objects, protos := protos, snapshots := snapshots, builders := builders }

end Rfc2511
end Verif
