import Verif.Py.Obj
import Verif.Gen.Rfc5280
import Verif.Gen.Rfc5652

/-! Transcription of /repo/pyasn1_modules/rfc5958.py (generated by tools/gen.py). -/

namespace Verif
namespace Rfc5958

/-- rfc5958.py:22 -/
def MAX : Py.Bound :=
  .inf

/-- rfc5958.py:25-26 `class KeyEncryptionAlgorithmIdentifier(rfc5280.AlgorithmIdentifier)` -/
def KeyEncryptionAlgorithmIdentifier : Py.Obj :=
  Rfc5280.AlgorithmIdentifier

/-- rfc5958.py:29-30 `class PrivateKeyAlgorithmIdentifier(rfc5280.AlgorithmIdentifier)` -/
def PrivateKeyAlgorithmIdentifier : Py.Obj :=
  Rfc5280.AlgorithmIdentifier

/-- rfc5958.py:33-34 `class EncryptedData(univ.OctetString)` -/
def EncryptedData : Py.Obj :=
  Py.univ.OctetString

/-- rfc5958.py:37-41 `class EncryptedPrivateKeyInfo(univ.Sequence)` -/
def EncryptedPrivateKeyInfo : Py.Obj :=
  Py.univ.Sequence.setComponentType (Py.NamedTypes [
    Py.NamedType "encryptionAlgorithm" Rfc5958.KeyEncryptionAlgorithmIdentifier.call,
    Py.NamedType "encryptedData" Rfc5958.EncryptedData.call])

/-- rfc5958.py:44-45 `class Version(univ.Integer)` -/
def Version : Py.Obj :=
  Py.univ.Integer.setNamedValues (Py.NamedValues [("v1", 0), ("v2", 1)])

/-- rfc5958.py:48-49 `class PrivateKey(univ.OctetString)` -/
def PrivateKey : Py.Obj :=
  Py.univ.OctetString

/-- rfc5958.py:52-53 `class Attributes(univ.SetOf)` -/
def Attributes : Py.Obj :=
  Py.univ.SetOf.setComponentTypeOf Rfc5652.Attribute.call

/-- rfc5958.py:56-57 `class PublicKey(univ.BitString)` -/
def PublicKey : Py.Obj :=
  Py.univ.BitString

/-- rfc5958.py:64-73 `class OneAsymmetricKey(univ.Sequence)` -/
def OneAsymmetricKey : Py.Obj :=
  Py.univ.Sequence.setComponentType (Py.NamedTypes [
    Py.NamedType "version" Rfc5958.Version.call,
    Py.NamedType "privateKeyAlgorithm" Rfc5958.PrivateKeyAlgorithmIdentifier.call,
    Py.NamedType "privateKey" Rfc5958.PrivateKey.call,
    Py.OptionalNamedType "attributes" (Rfc5958.Attributes.call.implicitTag (Py.Tag .context true 0)),
    Py.OptionalNamedType "publicKey" (Rfc5958.PublicKey.call.implicitTag (Py.Tag .context true 1))])

/-- rfc5958.py:76-77 `class PrivateKeyInfo(OneAsymmetricKey)` -/
def PrivateKeyInfo : Py.Obj :=
  Rfc5958.OneAsymmetricKey

/-- rfc5958.py:82 -/
def id_ct_KP_aKeyPackage : Py.Obj :=
  (Py.univ.ObjectIdentifier.call.callArcs [2, 16, 840, 1, 101, 2, 1, 2, 78, 5])

/-- rfc5958.py:84-85 `class AsymmetricKeyPackage(univ.SequenceOf)` -/
def AsymmetricKeyPackage__0 : Py.Obj :=
  Py.univ.SequenceOf

/-- rfc5958.py:87 `AsymmetricKeyPackage.componentType = ...` -/
def AsymmetricKeyPackage__1 : Py.Obj :=
  Rfc5958.AsymmetricKeyPackage__0.setComponentTypeOf Rfc5958.OneAsymmetricKey.call

/-- rfc5958.py:88 `AsymmetricKeyPackage.sizeSpec = ...` -/
def AsymmetricKeyPackage : Py.Obj :=
  Rfc5958.AsymmetricKeyPackage__1.setSizeSpec (Py.ValueSizeConstraint (.fin 1) Rfc5958.MAX)

/-- rfc5958.py:94-96 -/
def _cmsContentTypesMapUpdate : Py.Entries :=
  [(Rfc5958.id_ct_KP_aKeyPackage.value, Rfc5958.AsymmetricKeyPackage.call.ty)]

/-- Modules of this package imported by rfc5958.py, in textual order. -/
def imports : List Py.Ident :=
  [(Py.mod 15 "rfc5280"), (Py.mod 16 "rfc5652")]

/-- Dictionary operations executed when rfc5958.py is imported, in program order. -/
def effects : List Py.Effect :=
  [.create (Py.map 100 "rfc5958._cmsContentTypesMapUpdate") Rfc5958._cmsContentTypesMapUpdate /- rfc5958.py:94-96 -/,
   .update (Py.map 13 "rfc5652.cmsContentTypesMap") Rfc5958._cmsContentTypesMapUpdate /- rfc5958.py:98 -/]

/-- ASN.1 types rfc5958.py binds at module level (final version of each name), plus nested classes. -/
def classes : List (String × Py.Obj) :=
  [("rfc5958.KeyEncryptionAlgorithmIdentifier", Rfc5958.KeyEncryptionAlgorithmIdentifier),
   ("rfc5958.PrivateKeyAlgorithmIdentifier", Rfc5958.PrivateKeyAlgorithmIdentifier),
   ("rfc5958.EncryptedData", Rfc5958.EncryptedData),
   ("rfc5958.EncryptedPrivateKeyInfo", Rfc5958.EncryptedPrivateKeyInfo),
   ("rfc5958.Version", Rfc5958.Version),
   ("rfc5958.PrivateKey", Rfc5958.PrivateKey),
   ("rfc5958.Attributes", Rfc5958.Attributes),
   ("rfc5958.PublicKey", Rfc5958.PublicKey),
   ("rfc5958.OneAsymmetricKey", Rfc5958.OneAsymmetricKey),
   ("rfc5958.PrivateKeyInfo", Rfc5958.PrivateKeyInfo),
   ("rfc5958.AsymmetricKeyPackage", Rfc5958.AsymmetricKeyPackage)]

/-- pyasn1 instances rfc5958.py binds at module level. -/
def objects : List (String × Py.Obj) :=
  [("rfc5958.id_ct_KP_aKeyPackage", Rfc5958.id_ct_KP_aKeyPackage)]

/-- pyasn1 instances rfc5958.py fills in by item assignment. -/
def protos : List (String × Py.Proto) :=
  []

/-- Every place of rfc5958.py that instantiates a class of the package: where, the class as it is
at that point, and the class as it is when the import has finished. -/
def snapshots : List Py.Snapshot :=
  [⟨"rfc5958.py:39", Rfc5958.KeyEncryptionAlgorithmIdentifier, Rfc5958.KeyEncryptionAlgorithmIdentifier⟩,
   ⟨"rfc5958.py:40", Rfc5958.EncryptedData, Rfc5958.EncryptedData⟩,
   ⟨"rfc5958.py:53", Rfc5652.Attribute, Rfc5652.Attribute⟩,
   ⟨"rfc5958.py:66", Rfc5958.Version, Rfc5958.Version⟩,
   ⟨"rfc5958.py:67", Rfc5958.PrivateKeyAlgorithmIdentifier, Rfc5958.PrivateKeyAlgorithmIdentifier⟩,
   ⟨"rfc5958.py:68", Rfc5958.PrivateKey, Rfc5958.PrivateKey⟩,
   ⟨"rfc5958.py:69", Rfc5958.Attributes, Rfc5958.Attributes⟩,
   ⟨"rfc5958.py:71", Rfc5958.PublicKey, Rfc5958.PublicKey⟩,
   ⟨"rfc5958.py:87", Rfc5958.OneAsymmetricKey, Rfc5958.OneAsymmetricKey⟩,
   ⟨"rfc5958.py:95", Rfc5958.AsymmetricKeyPackage, Rfc5958.AsymmetricKeyPackage⟩]

/-- Functions rfc5958.py defines. -/
def builders : List (String × (List Py.OidArg → Py.Obj)) :=
  []

def asModule : Py.Module :=
  { id := (Py.mod 22 "rfc5958"), imports := imports, effects := effects, classes := classes, objects := objects, protos := protos, snapshots := snapshots, builders := builders }

end Rfc5958
end Verif
