import Verif.Py.Obj
import Verif.Gen.Rfc3280
import Verif.Gen.Rfc3852

/-! Transcription of /repo/pyasn1_modules/rfc4211.py (generated by tools/gen.py). -/

namespace Verif
namespace Rfc4211

/-- rfc4211.py:25 -/
def MAX : Py.Bound :=
  .inf

/-- rfc4211.py:28-36 `def _buildOid(*components)` -/
def _buildOid (components : List Py.OidArg) : Py.Obj :=
  match Py.oidLoop [] components with
  | some output => Py.univ.ObjectIdentifier.call.callArcs output
  | none => .fail "OID without value"

/-- rfc4211.py:39 -/
def id_pkix : Py.Obj :=
  (Rfc4211._buildOid [.num 1, .num 3, .num 6, .num 1, .num 5, .num 5, .num 7])

/-- rfc4211.py:41 -/
def id_pkip : Py.Obj :=
  (Rfc4211._buildOid [.oid Rfc4211.id_pkix, .num 5])

/-- rfc4211.py:43 -/
def id_regCtrl : Py.Obj :=
  (Rfc4211._buildOid [.oid Rfc4211.id_pkip, .num 1])

/-- rfc4211.py:46-47 `class SinglePubInfo(univ.Sequence)` -/
def SinglePubInfo__0 : Py.Obj :=
  Py.univ.Sequence

/-- rfc4211.py:50-54 `SinglePubInfo.componentType = ...` -/
def SinglePubInfo : Py.Obj :=
  Rfc4211.SinglePubInfo__0.setComponentType (Py.NamedTypes [
    Py.NamedType "pubMethod" (Py.univ.Integer.call.setNamedValues (Py.NamedValues [("dontCare", 0), ("x500", 1), ("web", 2), ("ldap", 3)])),
    Py.OptionalNamedType "pubLocation" Rfc3280.GeneralName.call])

/-- rfc4211.py:57-58 `class UTF8Pairs(char.UTF8String)` -/
def UTF8Pairs : Py.Obj :=
  Py.char.UTF8String

/-- rfc4211.py:61-62 `class PKMACValue(univ.Sequence)` -/
def PKMACValue__0 : Py.Obj :=
  Py.univ.Sequence

/-- rfc4211.py:65-68 `PKMACValue.componentType = ...` -/
def PKMACValue : Py.Obj :=
  Rfc4211.PKMACValue__0.setComponentType (Py.NamedTypes [
    Py.NamedType "algId" Rfc3280.AlgorithmIdentifier.call,
    Py.NamedType "value" Py.univ.BitString.call])

/-- rfc4211.py:71-72 `class POPOSigningKeyInput(univ.Sequence)` -/
def POPOSigningKeyInput__0 : Py.Obj :=
  Py.univ.Sequence

/-- rfc4211.py:75-89 `POPOSigningKeyInput.componentType = ...` -/
def POPOSigningKeyInput : Py.Obj :=
  Rfc4211.POPOSigningKeyInput__0.setComponentType (Py.NamedTypes [
    Py.NamedType "authInfo" (Py.univ.Choice.call.setComponentType (Py.NamedTypes [
    Py.NamedType "sender" (Rfc3280.GeneralName.call.implicitTag (Py.Tag .context true 0)),
    Py.NamedType "publicKeyMAC" Rfc4211.PKMACValue.call])),
    Py.NamedType "publicKey" Rfc3280.SubjectPublicKeyInfo.call])

/-- rfc4211.py:92-93 `class POPOSigningKey(univ.Sequence)` -/
def POPOSigningKey__0 : Py.Obj :=
  Py.univ.Sequence

/-- rfc4211.py:96-101 `POPOSigningKey.componentType = ...` -/
def POPOSigningKey : Py.Obj :=
  Rfc4211.POPOSigningKey__0.setComponentType (Py.NamedTypes [
    Py.OptionalNamedType "poposkInput" (Rfc4211.POPOSigningKeyInput.call.implicitTag (Py.Tag .context true 0)),
    Py.NamedType "algorithmIdentifier" Rfc3280.AlgorithmIdentifier.call,
    Py.NamedType "signature" Py.univ.BitString.call])

/-- rfc4211.py:104-105 `class Attributes(univ.SetOf)` -/
def Attributes__0 : Py.Obj :=
  Py.univ.SetOf

/-- rfc4211.py:108 `Attributes.componentType = ...` -/
def Attributes : Py.Obj :=
  Rfc4211.Attributes__0.setComponentTypeOf Rfc3280.Attribute.call

/-- rfc4211.py:111-112 `class PrivateKeyInfo(univ.Sequence)` -/
def PrivateKeyInfo__0 : Py.Obj :=
  Py.univ.Sequence

/-- rfc4211.py:115-121 `PrivateKeyInfo.componentType = ...` -/
def PrivateKeyInfo : Py.Obj :=
  Rfc4211.PrivateKeyInfo__0.setComponentType (Py.NamedTypes [
    Py.NamedType "version" Py.univ.Integer.call,
    Py.NamedType "privateKeyAlgorithm" Rfc3280.AlgorithmIdentifier.call,
    Py.NamedType "privateKey" Py.univ.OctetString.call,
    Py.OptionalNamedType "attributes" (Rfc4211.Attributes.call.implicitTag (Py.Tag .context false 0))])

/-- rfc4211.py:124-125 `class EncryptedValue(univ.Sequence)` -/
def EncryptedValue__0 : Py.Obj :=
  Py.univ.Sequence

/-- rfc4211.py:128-140 `EncryptedValue.componentType = ...` -/
def EncryptedValue : Py.Obj :=
  Rfc4211.EncryptedValue__0.setComponentType (Py.NamedTypes [
    Py.OptionalNamedType "intendedAlg" (Rfc3280.AlgorithmIdentifier.call.implicitTag (Py.Tag .context false 0)),
    Py.OptionalNamedType "symmAlg" (Rfc3280.AlgorithmIdentifier.call.implicitTag (Py.Tag .context false 1)),
    Py.OptionalNamedType "encSymmKey" (Py.univ.BitString.call.implicitTag (Py.Tag .context false 2)),
    Py.OptionalNamedType "keyAlg" (Rfc3280.AlgorithmIdentifier.call.implicitTag (Py.Tag .context false 3)),
    Py.OptionalNamedType "valueHint" (Py.univ.OctetString.call.implicitTag (Py.Tag .context false 4)),
    Py.NamedType "encValue" Py.univ.BitString.call])

/-- rfc4211.py:143-144 `class EncryptedKey(univ.Choice)` -/
def EncryptedKey__0 : Py.Obj :=
  Py.univ.Choice

/-- rfc4211.py:147-151 `EncryptedKey.componentType = ...` -/
def EncryptedKey : Py.Obj :=
  Rfc4211.EncryptedKey__0.setComponentType (Py.NamedTypes [
    Py.NamedType "encryptedValue" Rfc4211.EncryptedValue.call,
    Py.NamedType "envelopedData" (Rfc3852.EnvelopedData.call.implicitTag (Py.Tag .context false 0))])

/-- rfc4211.py:154-155 `class KeyGenParameters(univ.OctetString)` -/
def KeyGenParameters : Py.Obj :=
  Py.univ.OctetString

/-- rfc4211.py:158-159 `class PKIArchiveOptions(univ.Choice)` -/
def PKIArchiveOptions__0 : Py.Obj :=
  Py.univ.Choice

/-- rfc4211.py:162-169 `PKIArchiveOptions.componentType = ...` -/
def PKIArchiveOptions : Py.Obj :=
  Rfc4211.PKIArchiveOptions__0.setComponentType (Py.NamedTypes [
    Py.NamedType "encryptedPrivKey" (Rfc4211.EncryptedKey.call.implicitTag (Py.Tag .context true 0)),
    Py.NamedType "keyGenParameters" (Rfc4211.KeyGenParameters.call.implicitTag (Py.Tag .context false 1)),
    Py.NamedType "archiveRemGenPrivKey" (Py.univ.Boolean.call.implicitTag (Py.Tag .context false 2))])

/-- rfc4211.py:171 -/
def id_regCtrl_authenticator : Py.Obj :=
  (Rfc4211._buildOid [.oid Rfc4211.id_regCtrl, .num 2])

/-- rfc4211.py:173 -/
def id_regInfo : Py.Obj :=
  (Rfc4211._buildOid [.oid Rfc4211.id_pkip, .num 2])

/-- rfc4211.py:175 -/
def id_regInfo_certReq : Py.Obj :=
  (Rfc4211._buildOid [.oid Rfc4211.id_regInfo, .num 2])

/-- rfc4211.py:178-179 `class ProtocolEncrKey(rfc3280.SubjectPublicKeyInfo)` -/
def ProtocolEncrKey : Py.Obj :=
  Rfc3280.SubjectPublicKeyInfo

/-- rfc4211.py:182-183 `class Authenticator(char.UTF8String)` -/
def Authenticator : Py.Obj :=
  Py.char.UTF8String

/-- rfc4211.py:186-187 `class SubsequentMessage(univ.Integer)` -/
def SubsequentMessage__0 : Py.Obj :=
  Py.univ.Integer

/-- rfc4211.py:190-193 `SubsequentMessage.namedValues = ...` -/
def SubsequentMessage : Py.Obj :=
  Rfc4211.SubsequentMessage__0.setNamedValues (Py.NamedValues [("encrCert", 0), ("challengeResp", 1)])

/-- rfc4211.py:196-197 `class AttributeTypeAndValue(univ.Sequence)` -/
def AttributeTypeAndValue__0 : Py.Obj :=
  Py.univ.Sequence

/-- rfc4211.py:200-203 `AttributeTypeAndValue.componentType = ...` -/
def AttributeTypeAndValue : Py.Obj :=
  Rfc4211.AttributeTypeAndValue__0.setComponentType (Py.NamedTypes [
    Py.NamedType "type" Py.univ.ObjectIdentifier.call,
    Py.NamedType "value" Py.univ.Any.call])

/-- rfc4211.py:206-207 `class POPOPrivKey(univ.Choice)` -/
def POPOPrivKey__0 : Py.Obj :=
  Py.univ.Choice

/-- rfc4211.py:210-221 `POPOPrivKey.componentType = ...` -/
def POPOPrivKey : Py.Obj :=
  Rfc4211.POPOPrivKey__0.setComponentType (Py.NamedTypes [
    Py.NamedType "thisMessage" (Py.univ.BitString.call.implicitTag (Py.Tag .context false 0)),
    Py.NamedType "subsequentMessage" (Rfc4211.SubsequentMessage.call.implicitTag (Py.Tag .context false 1)),
    Py.NamedType "dhMAC" (Py.univ.BitString.call.implicitTag (Py.Tag .context false 2)),
    Py.NamedType "agreeMAC" (Rfc4211.PKMACValue.call.implicitTag (Py.Tag .context true 3)),
    Py.NamedType "encryptedKey" (Rfc3852.EnvelopedData.call.implicitTag (Py.Tag .context false 4))])

/-- rfc4211.py:224-225 `class ProofOfPossession(univ.Choice)` -/
def ProofOfPossession__0 : Py.Obj :=
  Py.univ.Choice

/-- rfc4211.py:228-237 `ProofOfPossession.componentType = ...` -/
def ProofOfPossession : Py.Obj :=
  Rfc4211.ProofOfPossession__0.setComponentType (Py.NamedTypes [
    Py.NamedType "raVerified" (Py.univ.Null.call.implicitTag (Py.Tag .context false 0)),
    Py.NamedType "signature" (Rfc4211.POPOSigningKey.call.implicitTag (Py.Tag .context true 1)),
    Py.NamedType "keyEncipherment" (Rfc4211.POPOPrivKey.call.implicitTag (Py.Tag .context true 2)),
    Py.NamedType "keyAgreement" (Rfc4211.POPOPrivKey.call.implicitTag (Py.Tag .context true 3))])

/-- rfc4211.py:240-241 `class OptionalValidity(univ.Sequence)` -/
def OptionalValidity__0 : Py.Obj :=
  Py.univ.Sequence

/-- rfc4211.py:244-249 `OptionalValidity.componentType = ...` -/
def OptionalValidity : Py.Obj :=
  Rfc4211.OptionalValidity__0.setComponentType (Py.NamedTypes [
    Py.OptionalNamedType "notBefore" (Rfc3280.Time.call.implicitTag (Py.Tag .context true 0)),
    Py.OptionalNamedType "notAfter" (Rfc3280.Time.call.implicitTag (Py.Tag .context true 1))])

/-- rfc4211.py:252-253 `class CertTemplate(univ.Sequence)` -/
def CertTemplate__0 : Py.Obj :=
  Py.univ.Sequence

/-- rfc4211.py:256-277 `CertTemplate.componentType = ...` -/
def CertTemplate : Py.Obj :=
  Rfc4211.CertTemplate__0.setComponentType (Py.NamedTypes [
    Py.OptionalNamedType "version" (Rfc3280.Version.call.implicitTag (Py.Tag .context false 0)),
    Py.OptionalNamedType "serialNumber" (Py.univ.Integer.call.implicitTag (Py.Tag .context false 1)),
    Py.OptionalNamedType "signingAlg" (Rfc3280.AlgorithmIdentifier.call.implicitTag (Py.Tag .context false 2)),
    Py.OptionalNamedType "issuer" (Rfc3280.Name.call.implicitTag (Py.Tag .context true 3)),
    Py.OptionalNamedType "validity" (Rfc4211.OptionalValidity.call.implicitTag (Py.Tag .context true 4)),
    Py.OptionalNamedType "subject" (Rfc3280.Name.call.implicitTag (Py.Tag .context true 5)),
    Py.OptionalNamedType "publicKey" (Rfc3280.SubjectPublicKeyInfo.call.implicitTag (Py.Tag .context false 6)),
    Py.OptionalNamedType "issuerUID" (Rfc3280.UniqueIdentifier.call.implicitTag (Py.Tag .context false 7)),
    Py.OptionalNamedType "subjectUID" (Rfc3280.UniqueIdentifier.call.implicitTag (Py.Tag .context false 8)),
    Py.OptionalNamedType "extensions" (Rfc3280.Extensions.call.implicitTag (Py.Tag .context false 9))])

/-- rfc4211.py:280-281 `class Controls(univ.SequenceOf)` -/
def Controls__0 : Py.Obj :=
  Py.univ.SequenceOf

/-- rfc4211.py:284 `Controls.componentType = ...` -/
def Controls__1 : Py.Obj :=
  Rfc4211.Controls__0.setComponentTypeOf Rfc4211.AttributeTypeAndValue.call

/-- rfc4211.py:285 `Controls.sizeSpec = ...` -/
def Controls : Py.Obj :=
  Rfc4211.Controls__1.setSizeSpec (Py.ValueSizeConstraint (.fin 1) Rfc4211.MAX)

/-- rfc4211.py:288-289 `class CertRequest(univ.Sequence)` -/
def CertRequest__0 : Py.Obj :=
  Py.univ.Sequence

/-- rfc4211.py:292-296 `CertRequest.componentType = ...` -/
def CertRequest : Py.Obj :=
  Rfc4211.CertRequest__0.setComponentType (Py.NamedTypes [
    Py.NamedType "certReqId" Py.univ.Integer.call,
    Py.NamedType "certTemplate" Rfc4211.CertTemplate.call,
    Py.OptionalNamedType "controls" Rfc4211.Controls.call])

/-- rfc4211.py:299-300 `class CertReqMsg(univ.Sequence)` -/
def CertReqMsg__0 : Py.Obj :=
  Py.univ.Sequence

/-- rfc4211.py:303-307 `CertReqMsg.componentType = ...` -/
def CertReqMsg : Py.Obj :=
  Rfc4211.CertReqMsg__0.setComponentType (Py.NamedTypes [
    Py.NamedType "certReq" Rfc4211.CertRequest.call,
    Py.OptionalNamedType "popo" Rfc4211.ProofOfPossession.call,
    Py.OptionalNamedType "regInfo" (Py.univ.SequenceOf.call.setComponentTypeOf Rfc4211.AttributeTypeAndValue.call)])

/-- rfc4211.py:310-311 `class CertReqMessages(univ.SequenceOf)` -/
def CertReqMessages__0 : Py.Obj :=
  Py.univ.SequenceOf

/-- rfc4211.py:314 `CertReqMessages.componentType = ...` -/
def CertReqMessages__1 : Py.Obj :=
  Rfc4211.CertReqMessages__0.setComponentTypeOf Rfc4211.CertReqMsg.call

/-- rfc4211.py:315 `CertReqMessages.sizeSpec = ...` -/
def CertReqMessages : Py.Obj :=
  Rfc4211.CertReqMessages__1.setSizeSpec (Py.ValueSizeConstraint (.fin 1) Rfc4211.MAX)

/-- rfc4211.py:318-319 `class CertReq(CertRequest)` -/
def CertReq : Py.Obj :=
  Rfc4211.CertRequest

/-- rfc4211.py:322 -/
def id_regCtrl_pkiPublicationInfo : Py.Obj :=
  (Rfc4211._buildOid [.oid Rfc4211.id_regCtrl, .num 3])

/-- rfc4211.py:325-326 `class CertId(univ.Sequence)` -/
def CertId__0 : Py.Obj :=
  Py.univ.Sequence

/-- rfc4211.py:329-332 `CertId.componentType = ...` -/
def CertId : Py.Obj :=
  Rfc4211.CertId__0.setComponentType (Py.NamedTypes [
    Py.NamedType "issuer" Rfc3280.GeneralName.call,
    Py.NamedType "serialNumber" Py.univ.Integer.call])

/-- rfc4211.py:335-336 `class OldCertId(CertId)` -/
def OldCertId : Py.Obj :=
  Rfc4211.CertId

/-- rfc4211.py:339-340 `class PKIPublicationInfo(univ.Sequence)` -/
def PKIPublicationInfo__0 : Py.Obj :=
  Py.univ.Sequence

/-- rfc4211.py:343-347 `PKIPublicationInfo.componentType = ...` -/
def PKIPublicationInfo : Py.Obj :=
  Rfc4211.PKIPublicationInfo__0.setComponentType (Py.NamedTypes [
    Py.NamedType "action" (Py.univ.Integer.call.setNamedValues (Py.NamedValues [("dontPublish", 0), ("pleasePublish", 1)])),
    Py.OptionalNamedType "pubInfos" (Py.univ.SequenceOf.call.setComponentTypeOf Rfc4211.SinglePubInfo.call)])

/-- rfc4211.py:350-351 `class EncKeyWithID(univ.Sequence)` -/
def EncKeyWithID__0 : Py.Obj :=
  Py.univ.Sequence

/-- rfc4211.py:354-364 `EncKeyWithID.componentType = ...` -/
def EncKeyWithID : Py.Obj :=
  Rfc4211.EncKeyWithID__0.setComponentType (Py.NamedTypes [
    Py.NamedType "privateKey" Rfc4211.PrivateKeyInfo.call,
    Py.OptionalNamedType "identifier" (Py.univ.Choice.call.setComponentType (Py.NamedTypes [
    Py.NamedType "string" Py.char.UTF8String.call,
    Py.NamedType "generalName" Rfc3280.GeneralName.call]))])

/-- rfc4211.py:366 -/
def id_regCtrl_protocolEncrKey : Py.Obj :=
  (Rfc4211._buildOid [.oid Rfc4211.id_regCtrl, .num 6])

/-- rfc4211.py:368 -/
def id_regCtrl_oldCertID : Py.Obj :=
  (Rfc4211._buildOid [.oid Rfc4211.id_regCtrl, .num 5])

/-- rfc4211.py:370 -/
def id_smime : Py.Obj :=
  (Rfc4211._buildOid [.num 1, .num 2, .num 840, .num 113549, .num 1, .num 9, .num 16])

/-- rfc4211.py:373-374 `class PBMParameter(univ.Sequence)` -/
def PBMParameter__0 : Py.Obj :=
  Py.univ.Sequence

/-- rfc4211.py:377-382 `PBMParameter.componentType = ...` -/
def PBMParameter : Py.Obj :=
  Rfc4211.PBMParameter__0.setComponentType (Py.NamedTypes [
    Py.NamedType "salt" Py.univ.OctetString.call,
    Py.NamedType "owf" Rfc3280.AlgorithmIdentifier.call,
    Py.NamedType "iterationCount" Py.univ.Integer.call,
    Py.NamedType "mac" Rfc3280.AlgorithmIdentifier.call])

/-- rfc4211.py:384 -/
def id_regCtrl_regToken : Py.Obj :=
  (Rfc4211._buildOid [.oid Rfc4211.id_regCtrl, .num 1])

/-- rfc4211.py:386 -/
def id_regCtrl_pkiArchiveOptions : Py.Obj :=
  (Rfc4211._buildOid [.oid Rfc4211.id_regCtrl, .num 4])

/-- rfc4211.py:388 -/
def id_regInfo_utf8Pairs : Py.Obj :=
  (Rfc4211._buildOid [.oid Rfc4211.id_regInfo, .num 1])

/-- rfc4211.py:390 -/
def id_ct : Py.Obj :=
  (Rfc4211._buildOid [.oid Rfc4211.id_smime, .num 1])

/-- rfc4211.py:392 -/
def id_ct_encKeyWithID : Py.Obj :=
  (Rfc4211._buildOid [.oid Rfc4211.id_ct, .num 21])

/-- rfc4211.py:395-396 `class RegToken(char.UTF8String)` -/
def RegToken : Py.Obj :=
  Py.char.UTF8String

/-- Modules of this package imported by rfc4211.py, in textual order. -/
def imports : List Py.Ident :=
  [(Py.mod 13 "rfc3280"), (Py.mod 51 "rfc3852")]

/-- Dictionary operations executed when rfc4211.py is imported, in program order. -/
def effects : List Py.Effect :=
  []

/-- ASN.1 types rfc4211.py binds at module level (final version of each name), plus nested classes. -/
def classes : List (String × Py.Obj) :=
  [("rfc4211.SinglePubInfo", Rfc4211.SinglePubInfo),
   ("rfc4211.UTF8Pairs", Rfc4211.UTF8Pairs),
   ("rfc4211.PKMACValue", Rfc4211.PKMACValue),
   ("rfc4211.POPOSigningKeyInput", Rfc4211.POPOSigningKeyInput),
   ("rfc4211.POPOSigningKey", Rfc4211.POPOSigningKey),
   ("rfc4211.Attributes", Rfc4211.Attributes),
   ("rfc4211.PrivateKeyInfo", Rfc4211.PrivateKeyInfo),
   ("rfc4211.EncryptedValue", Rfc4211.EncryptedValue),
   ("rfc4211.EncryptedKey", Rfc4211.EncryptedKey),
   ("rfc4211.KeyGenParameters", Rfc4211.KeyGenParameters),
   ("rfc4211.PKIArchiveOptions", Rfc4211.PKIArchiveOptions),
   ("rfc4211.ProtocolEncrKey", Rfc4211.ProtocolEncrKey),
   ("rfc4211.Authenticator", Rfc4211.Authenticator),
   ("rfc4211.SubsequentMessage", Rfc4211.SubsequentMessage),
   ("rfc4211.AttributeTypeAndValue", Rfc4211.AttributeTypeAndValue),
   ("rfc4211.POPOPrivKey", Rfc4211.POPOPrivKey),
   ("rfc4211.ProofOfPossession", Rfc4211.ProofOfPossession),
   ("rfc4211.OptionalValidity", Rfc4211.OptionalValidity),
   ("rfc4211.CertTemplate", Rfc4211.CertTemplate),
   ("rfc4211.Controls", Rfc4211.Controls),
   ("rfc4211.CertRequest", Rfc4211.CertRequest),
   ("rfc4211.CertReqMsg", Rfc4211.CertReqMsg),
   ("rfc4211.CertReqMessages", Rfc4211.CertReqMessages),
   ("rfc4211.CertReq", Rfc4211.CertReq),
   ("rfc4211.CertId", Rfc4211.CertId),
   ("rfc4211.OldCertId", Rfc4211.OldCertId),
   ("rfc4211.PKIPublicationInfo", Rfc4211.PKIPublicationInfo),
   ("rfc4211.EncKeyWithID", Rfc4211.EncKeyWithID),
   ("rfc4211.PBMParameter", Rfc4211.PBMParameter),
   ("rfc4211.RegToken", Rfc4211.RegToken)]

/-- pyasn1 instances rfc4211.py binds at module level. -/
def objects : List (String × Py.Obj) :=
  [("rfc4211.id_pkix", Rfc4211.id_pkix),
   ("rfc4211.id_pkip", Rfc4211.id_pkip),
   ("rfc4211.id_regCtrl", Rfc4211.id_regCtrl),
   ("rfc4211.id_regCtrl_authenticator", Rfc4211.id_regCtrl_authenticator),
   ("rfc4211.id_regInfo", Rfc4211.id_regInfo),
   ("rfc4211.id_regInfo_certReq", Rfc4211.id_regInfo_certReq),
   ("rfc4211.id_regCtrl_pkiPublicationInfo", Rfc4211.id_regCtrl_pkiPublicationInfo),
   ("rfc4211.id_regCtrl_protocolEncrKey", Rfc4211.id_regCtrl_protocolEncrKey),
   ("rfc4211.id_regCtrl_oldCertID", Rfc4211.id_regCtrl_oldCertID),
   ("rfc4211.id_smime", Rfc4211.id_smime),
   ("rfc4211.id_regCtrl_regToken", Rfc4211.id_regCtrl_regToken),
   ("rfc4211.id_regCtrl_pkiArchiveOptions", Rfc4211.id_regCtrl_pkiArchiveOptions),
   ("rfc4211.id_regInfo_utf8Pairs", Rfc4211.id_regInfo_utf8Pairs),
   ("rfc4211.id_ct", Rfc4211.id_ct),
   ("rfc4211.id_ct_encKeyWithID", Rfc4211.id_ct_encKeyWithID)]

/-- pyasn1 instances rfc4211.py fills in by item assignment. -/
def protos : List (String × Py.Proto) :=
  []

/-- Every place of rfc4211.py that instantiates a class of the package: where, the class as it is
at that point, and the class as it is when the import has finished. -/
def snapshots : List Py.Snapshot :=
  [⟨"rfc4211.py:53", Rfc3280.GeneralName, Rfc3280.GeneralName⟩,
   ⟨"rfc4211.py:66", Rfc3280.AlgorithmIdentifier, Rfc3280.AlgorithmIdentifier⟩,
   ⟨"rfc4211.py:80", Rfc3280.GeneralName, Rfc3280.GeneralName⟩,
   ⟨"rfc4211.py:83", Rfc4211.PKMACValue, Rfc4211.PKMACValue⟩,
   ⟨"rfc4211.py:88", Rfc3280.SubjectPublicKeyInfo, Rfc3280.SubjectPublicKeyInfo⟩,
   ⟨"rfc4211.py:97", Rfc4211.POPOSigningKeyInput, Rfc4211.POPOSigningKeyInput⟩,
   ⟨"rfc4211.py:99", Rfc3280.AlgorithmIdentifier, Rfc3280.AlgorithmIdentifier⟩,
   ⟨"rfc4211.py:108", Rfc3280.Attribute, Rfc3280.Attribute⟩,
   ⟨"rfc4211.py:117", Rfc3280.AlgorithmIdentifier, Rfc3280.AlgorithmIdentifier⟩,
   ⟨"rfc4211.py:120", Rfc4211.Attributes, Rfc4211.Attributes⟩,
   ⟨"rfc4211.py:129", Rfc3280.AlgorithmIdentifier, Rfc3280.AlgorithmIdentifier⟩,
   ⟨"rfc4211.py:131", Rfc3280.AlgorithmIdentifier, Rfc3280.AlgorithmIdentifier⟩,
   ⟨"rfc4211.py:135", Rfc3280.AlgorithmIdentifier, Rfc3280.AlgorithmIdentifier⟩,
   ⟨"rfc4211.py:148", Rfc4211.EncryptedValue, Rfc4211.EncryptedValue⟩,
   ⟨"rfc4211.py:149", Rfc3852.EnvelopedData, Rfc3852.EnvelopedData⟩,
   ⟨"rfc4211.py:164", Rfc4211.EncryptedKey, Rfc4211.EncryptedKey⟩,
   ⟨"rfc4211.py:166", Rfc4211.KeyGenParameters, Rfc4211.KeyGenParameters⟩,
   ⟨"rfc4211.py:214", Rfc4211.SubsequentMessage, Rfc4211.SubsequentMessage⟩,
   ⟨"rfc4211.py:218", Rfc4211.PKMACValue, Rfc4211.PKMACValue⟩,
   ⟨"rfc4211.py:219", Rfc3852.EnvelopedData, Rfc3852.EnvelopedData⟩,
   ⟨"rfc4211.py:231", Rfc4211.POPOSigningKey, Rfc4211.POPOSigningKey⟩,
   ⟨"rfc4211.py:234", Rfc4211.POPOPrivKey, Rfc4211.POPOPrivKey⟩,
   ⟨"rfc4211.py:236", Rfc4211.POPOPrivKey, Rfc4211.POPOPrivKey⟩,
   ⟨"rfc4211.py:245", Rfc3280.Time, Rfc3280.Time⟩,
   ⟨"rfc4211.py:247", Rfc3280.Time, Rfc3280.Time⟩,
   ⟨"rfc4211.py:257", Rfc3280.Version, Rfc3280.Version⟩,
   ⟨"rfc4211.py:261", Rfc3280.AlgorithmIdentifier, Rfc3280.AlgorithmIdentifier⟩,
   ⟨"rfc4211.py:263", Rfc3280.Name, Rfc3280.Name⟩,
   ⟨"rfc4211.py:265", Rfc4211.OptionalValidity, Rfc4211.OptionalValidity⟩,
   ⟨"rfc4211.py:267", Rfc3280.Name, Rfc3280.Name⟩,
   ⟨"rfc4211.py:269", Rfc3280.SubjectPublicKeyInfo, Rfc3280.SubjectPublicKeyInfo⟩,
   ⟨"rfc4211.py:271", Rfc3280.UniqueIdentifier, Rfc3280.UniqueIdentifier⟩,
   ⟨"rfc4211.py:273", Rfc3280.UniqueIdentifier, Rfc3280.UniqueIdentifier⟩,
   ⟨"rfc4211.py:275", Rfc3280.Extensions, Rfc3280.Extensions⟩,
   ⟨"rfc4211.py:284", Rfc4211.AttributeTypeAndValue, Rfc4211.AttributeTypeAndValue⟩,
   ⟨"rfc4211.py:294", Rfc4211.CertTemplate, Rfc4211.CertTemplate⟩,
   ⟨"rfc4211.py:295", Rfc4211.Controls, Rfc4211.Controls⟩,
   ⟨"rfc4211.py:304", Rfc4211.CertRequest, Rfc4211.CertRequest⟩,
   ⟨"rfc4211.py:305", Rfc4211.ProofOfPossession, Rfc4211.ProofOfPossession⟩,
   ⟨"rfc4211.py:306", Rfc4211.AttributeTypeAndValue, Rfc4211.AttributeTypeAndValue⟩,
   ⟨"rfc4211.py:314", Rfc4211.CertReqMsg, Rfc4211.CertReqMsg⟩,
   ⟨"rfc4211.py:330", Rfc3280.GeneralName, Rfc3280.GeneralName⟩,
   ⟨"rfc4211.py:346", Rfc4211.SinglePubInfo, Rfc4211.SinglePubInfo⟩,
   ⟨"rfc4211.py:355", Rfc4211.PrivateKeyInfo, Rfc4211.PrivateKeyInfo⟩,
   ⟨"rfc4211.py:360", Rfc3280.GeneralName, Rfc3280.GeneralName⟩,
   ⟨"rfc4211.py:379", Rfc3280.AlgorithmIdentifier, Rfc3280.AlgorithmIdentifier⟩,
   ⟨"rfc4211.py:381", Rfc3280.AlgorithmIdentifier, Rfc3280.AlgorithmIdentifier⟩]

/-- Functions rfc4211.py defines. -/
def builders : List (String × (List Py.OidArg → Py.Obj)) :=
  [("rfc4211._buildOid", Rfc4211._buildOid)]

def asModule : Py.Module :=
  { id := (Py.mod 56 "rfc4211"), imports := imports, effects := effects, classes := classes, objects := objects, protos := protos, snapshots := snapshots, builders := builders }

end Rfc4211
end Verif
