import Verif.Py.Obj
import Verif.Gen.Rfc2251
import Verif.Gen.Rfc2459

/-! Transcription of /repo/pyasn1_modules/rfc5208.py (generated by tools/gen.py). -/

namespace Verif
namespace Rfc5208

/-- rfc5208.py:18-19 `class KeyEncryptionAlgorithms(AlgorithmIdentifier)` -/
def KeyEncryptionAlgorithms : Py.Obj :=
  Rfc2459.AlgorithmIdentifier

/-- rfc5208.py:22-23 `class PrivateKeyAlgorithms(AlgorithmIdentifier)` -/
def PrivateKeyAlgorithms : Py.Obj :=
  Rfc2459.AlgorithmIdentifier

/-- rfc5208.py:26-27 `class EncryptedData(univ.OctetString)` -/
def EncryptedData : Py.Obj :=
  Py.univ.OctetString

/-- rfc5208.py:30-34 `class EncryptedPrivateKeyInfo(univ.Sequence)` -/
def EncryptedPrivateKeyInfo : Py.Obj :=
  Py.univ.Sequence.setComponentType (Py.NamedTypes [
    Py.NamedType "encryptionAlgorithm" Rfc2459.AlgorithmIdentifier.call,
    Py.NamedType "encryptedData" Rfc5208.EncryptedData.call])

/-- rfc5208.py:37-38 `class PrivateKey(univ.OctetString)` -/
def PrivateKey : Py.Obj :=
  Py.univ.OctetString

/-- rfc5208.py:41-42 `class Attributes(univ.SetOf)` -/
def Attributes : Py.Obj :=
  Py.univ.SetOf.setComponentTypeOf Rfc2251.Attribute.call

/-- rfc5208.py:45-46 `class Version(univ.Integer)` -/
def Version : Py.Obj :=
  Py.univ.Integer.setNamedValues (Py.NamedValues [("v1", 0), ("v2", 1)])

/-- rfc5208.py:49-56 `class PrivateKeyInfo(univ.Sequence)` -/
def PrivateKeyInfo : Py.Obj :=
  Py.univ.Sequence.setComponentType (Py.NamedTypes [
    Py.NamedType "version" Rfc5208.Version.call,
    Py.NamedType "privateKeyAlgorithm" Rfc2459.AlgorithmIdentifier.call,
    Py.NamedType "privateKey" Rfc5208.PrivateKey.call,
    Py.OptionalNamedType "attributes" (Rfc5208.Attributes.call.implicitTag (Py.Tag .context true 0))])

/-- Modules of this package imported by rfc5208.py, in textual order. -/
def imports : List Py.Ident :=
  [(Py.mod 5 "rfc2251"), (Py.mod 6 "rfc2459")]

/-- Dictionary operations executed when rfc5208.py is imported, in program order. -/
def effects : List Py.Effect :=
  []

/-- ASN.1 types rfc5208.py binds at module level (final version of each name), plus nested classes. -/
def classes : List (String × Py.Obj) :=
  [("rfc5208.Version", Rfc5208.Version),
   ("rfc5208.KeyEncryptionAlgorithms", Rfc5208.KeyEncryptionAlgorithms),
   ("rfc5208.PrivateKeyAlgorithms", Rfc5208.PrivateKeyAlgorithms),
   ("rfc5208.EncryptedData", Rfc5208.EncryptedData),
   ("rfc5208.EncryptedPrivateKeyInfo", Rfc5208.EncryptedPrivateKeyInfo),
   ("rfc5208.PrivateKey", Rfc5208.PrivateKey),
   ("rfc5208.Attributes", Rfc5208.Attributes),
   ("rfc5208.PrivateKeyInfo", Rfc5208.PrivateKeyInfo)]

/-- pyasn1 instances rfc5208.py binds at module level. -/
def objects : List (String × Py.Obj) :=
  []

/-- pyasn1 instances rfc5208.py fills in by item assignment. -/
def protos : List (String × Py.Proto) :=
  []

/-- Every place of rfc5208.py that instantiates a class of the package: where, the class as it is
at that point, and the class as it is when the import has finished. -/
def snapshots : List Py.Snapshot :=
  [⟨"rfc5208.py:32", Rfc2459.AlgorithmIdentifier, Rfc2459.AlgorithmIdentifier⟩,
   ⟨"rfc5208.py:33", Rfc5208.EncryptedData, Rfc5208.EncryptedData⟩,
   ⟨"rfc5208.py:42", Rfc2251.Attribute, Rfc2251.Attribute⟩,
   ⟨"rfc5208.py:51", Rfc5208.Version, Rfc5208.Version⟩,
   ⟨"rfc5208.py:52", Rfc2459.AlgorithmIdentifier, Rfc2459.AlgorithmIdentifier⟩,
   ⟨"rfc5208.py:53", Rfc5208.PrivateKey, Rfc5208.PrivateKey⟩,
   ⟨"rfc5208.py:54", Rfc5208.Attributes, Rfc5208.Attributes⟩]

/-- Functions rfc5208.py defines. -/
def builders : List (String × (List Py.OidArg → Py.Obj)) :=
  []

def asModule : Py.Module :=
  { id := (Py.mod 70 "rfc5208"), imports := imports, effects := effects, classes := classes, objects := objects, protos := protos, snapshots := snapshots, builders := builders }

end Rfc5208
end Verif
