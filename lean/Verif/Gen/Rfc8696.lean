import Verif.Py.Obj
import Verif.Gen.Rfc5652

/-! Transcription of /repo/pyasn1_modules/rfc8696.py (generated by tools/gen.py). -/

namespace Verif
namespace Rfc8696

/-- rfc8696.py:23 -/
def MAX : Py.Bound :=
  .inf

/-- rfc8696.py:26 -/
def id_ori : Py.Obj :=
  (Py.univ.ObjectIdentifier.call.callArcs [1, 2, 840, 113549, 1, 9, 16, 13])

/-- rfc8696.py:28 -/
def id_ori_keyTransPSK : Py.Obj :=
  (Py.univ.ObjectIdentifier.call.callArcs [1, 2, 840, 113549, 1, 9, 16, 13, 1])

/-- rfc8696.py:30 -/
def id_ori_keyAgreePSK : Py.Obj :=
  (Py.univ.ObjectIdentifier.call.callArcs [1, 2, 840, 113549, 1, 9, 16, 13, 2])

/-- rfc8696.py:33-34 `class PreSharedKeyIdentifier(univ.OctetString)` -/
def PreSharedKeyIdentifier : Py.Obj :=
  Py.univ.OctetString

/-- rfc8696.py:37-38 `class KeyTransRecipientInfos(univ.SequenceOf)` -/
def KeyTransRecipientInfos : Py.Obj :=
  Py.univ.SequenceOf.setComponentTypeOf Rfc5652.KeyTransRecipientInfo.call

/-- rfc8696.py:41-55 `class KeyTransPSKRecipientInfo(univ.Sequence)` -/
def KeyTransPSKRecipientInfo : Py.Obj :=
  Py.univ.Sequence.setComponentType (Py.NamedTypes [
    Py.NamedType "version" Rfc5652.CMSVersion.call,
    Py.NamedType "pskid" Rfc8696.PreSharedKeyIdentifier.call,
    Py.NamedType "kdfAlgorithm" Rfc5652.KeyDerivationAlgorithmIdentifier.call,
    Py.NamedType "keyEncryptionAlgorithm" Rfc5652.KeyEncryptionAlgorithmIdentifier.call,
    Py.NamedType "ktris" Rfc8696.KeyTransRecipientInfos.call,
    Py.NamedType "encryptedKey" Rfc5652.EncryptedKey.call])

/-- rfc8696.py:58-76 `class KeyAgreePSKRecipientInfo(univ.Sequence)` -/
def KeyAgreePSKRecipientInfo : Py.Obj :=
  Py.univ.Sequence.setComponentType (Py.NamedTypes [
    Py.NamedType "version" Rfc5652.CMSVersion.call,
    Py.NamedType "pskid" Rfc8696.PreSharedKeyIdentifier.call,
    Py.NamedType "originator" (Rfc5652.OriginatorIdentifierOrKey.call.explicitTag (Py.Tag .context true 0)),
    Py.OptionalNamedType "ukm" (Rfc5652.UserKeyingMaterial.call.explicitTag (Py.Tag .context false 1)),
    Py.NamedType "kdfAlgorithm" Rfc5652.KeyDerivationAlgorithmIdentifier.call,
    Py.NamedType "keyEncryptionAlgorithm" Rfc5652.KeyEncryptionAlgorithmIdentifier.call,
    Py.NamedType "recipientEncryptedKeys" Rfc5652.RecipientEncryptedKeys.call])

/-- rfc8696.py:79-94 `class CMSORIforPSKOtherInfo(univ.Sequence)` -/
def CMSORIforPSKOtherInfo : Py.Obj :=
  Py.univ.Sequence.setComponentType (Py.NamedTypes [
    Py.NamedType "psk" Py.univ.OctetString.call,
    Py.NamedType "keyMgmtAlgType" (Py.univ.Enumerated.call.setNamedValues (Py.NamedValues [("keyTrans", 5), ("keyAgree", 10)])),
    Py.NamedType "keyEncryptionAlgorithm" Rfc5652.KeyEncryptionAlgorithmIdentifier.call,
    Py.NamedType "pskLength" (Py.univ.Integer.call.addSubtypeSpec (Py.ValueRangeConstraint (.fin 1) Rfc8696.MAX)),
    Py.NamedType "kdkLength" (Py.univ.Integer.call.addSubtypeSpec (Py.ValueRangeConstraint (.fin 1) Rfc8696.MAX))])

/-- rfc8696.py:99-102 -/
def _otherRecipientInfoMapUpdate : Py.Entries :=
  [(Rfc8696.id_ori_keyTransPSK.value, Rfc8696.KeyTransPSKRecipientInfo.call.ty),
    (Rfc8696.id_ori_keyAgreePSK.value, Rfc8696.KeyAgreePSKRecipientInfo.call.ty)]

/-- Modules of this package imported by rfc8696.py, in textual order. -/
def imports : List Py.Ident :=
  [(Py.mod 16 "rfc5652")]

/-- Dictionary operations executed when rfc8696.py is imported, in program order. -/
def effects : List Py.Effect :=
  [.create (Py.map 145 "rfc8696._otherRecipientInfoMapUpdate") Rfc8696._otherRecipientInfoMapUpdate /- rfc8696.py:99-102 -/,
   .update (Py.map 12 "rfc5652.otherRecipientInfoMap") Rfc8696._otherRecipientInfoMapUpdate /- rfc8696.py:104 -/]

/-- ASN.1 types rfc8696.py binds at module level (final version of each name), plus nested classes. -/
def classes : List (String × Py.Obj) :=
  [("rfc8696.PreSharedKeyIdentifier", Rfc8696.PreSharedKeyIdentifier),
   ("rfc8696.KeyTransRecipientInfos", Rfc8696.KeyTransRecipientInfos),
   ("rfc8696.KeyTransPSKRecipientInfo", Rfc8696.KeyTransPSKRecipientInfo),
   ("rfc8696.KeyAgreePSKRecipientInfo", Rfc8696.KeyAgreePSKRecipientInfo),
   ("rfc8696.CMSORIforPSKOtherInfo", Rfc8696.CMSORIforPSKOtherInfo)]

/-- pyasn1 instances rfc8696.py binds at module level. -/
def objects : List (String × Py.Obj) :=
  [("rfc8696.id_ori", Rfc8696.id_ori),
   ("rfc8696.id_ori_keyTransPSK", Rfc8696.id_ori_keyTransPSK),
   ("rfc8696.id_ori_keyAgreePSK", Rfc8696.id_ori_keyAgreePSK)]

/-- pyasn1 instances rfc8696.py fills in by item assignment. -/
def protos : List (String × Py.Proto) :=
  []

/-- Every place of rfc8696.py that instantiates a class of the package: where, the class as it is
at that point, and the class as it is when the import has finished. -/
def snapshots : List Py.Snapshot :=
  [⟨"rfc8696.py:38", Rfc5652.KeyTransRecipientInfo, Rfc5652.KeyTransRecipientInfo⟩,
   ⟨"rfc8696.py:44", Rfc5652.CMSVersion, Rfc5652.CMSVersion⟩,
   ⟨"rfc8696.py:46", Rfc8696.PreSharedKeyIdentifier, Rfc8696.PreSharedKeyIdentifier⟩,
   ⟨"rfc8696.py:48", Rfc5652.KeyDerivationAlgorithmIdentifier, Rfc5652.KeyDerivationAlgorithmIdentifier⟩,
   ⟨"rfc8696.py:50", Rfc5652.KeyEncryptionAlgorithmIdentifier, Rfc5652.KeyEncryptionAlgorithmIdentifier⟩,
   ⟨"rfc8696.py:52", Rfc8696.KeyTransRecipientInfos, Rfc8696.KeyTransRecipientInfos⟩,
   ⟨"rfc8696.py:54", Rfc5652.EncryptedKey, Rfc5652.EncryptedKey⟩,
   ⟨"rfc8696.py:61", Rfc5652.CMSVersion, Rfc5652.CMSVersion⟩,
   ⟨"rfc8696.py:63", Rfc8696.PreSharedKeyIdentifier, Rfc8696.PreSharedKeyIdentifier⟩,
   ⟨"rfc8696.py:65", Rfc5652.OriginatorIdentifierOrKey, Rfc5652.OriginatorIdentifierOrKey⟩,
   ⟨"rfc8696.py:68", Rfc5652.UserKeyingMaterial, Rfc5652.UserKeyingMaterial⟩,
   ⟨"rfc8696.py:71", Rfc5652.KeyDerivationAlgorithmIdentifier, Rfc5652.KeyDerivationAlgorithmIdentifier⟩,
   ⟨"rfc8696.py:73", Rfc5652.KeyEncryptionAlgorithmIdentifier, Rfc5652.KeyEncryptionAlgorithmIdentifier⟩,
   ⟨"rfc8696.py:75", Rfc5652.RecipientEncryptedKeys, Rfc5652.RecipientEncryptedKeys⟩,
   ⟨"rfc8696.py:87", Rfc5652.KeyEncryptionAlgorithmIdentifier, Rfc5652.KeyEncryptionAlgorithmIdentifier⟩,
   ⟨"rfc8696.py:100", Rfc8696.KeyTransPSKRecipientInfo, Rfc8696.KeyTransPSKRecipientInfo⟩,
   ⟨"rfc8696.py:101", Rfc8696.KeyAgreePSKRecipientInfo, Rfc8696.KeyAgreePSKRecipientInfo⟩]

/-- Functions rfc8696.py defines. -/
def builders : List (String × (List Py.OidArg → Py.Obj)) :=
  []

def asModule : Py.Module :=
  { id := (Py.mod 126 "rfc8696"), imports := imports, effects := effects, classes := classes, objects := objects, protos := protos, snapshots := snapshots, builders := builders }

end Rfc8696
end Verif
