import Verif.Py.Obj
import Verif.Gen.Rfc5280

/-! Transcription of /repo/pyasn1_modules/rfc8649.py (generated by tools/gen.py). -/

namespace Verif
namespace Rfc8649

/-- rfc8649.py:21 -/
def id_ce_hashOfRootKey : Py.Obj :=
  (Py.univ.ObjectIdentifier.call.callArcs [1, 3, 6, 1, 4, 1, 51483, 2, 1])

/-- rfc8649.py:24-25 `class HashedRootKey(univ.Sequence)` -/
def HashedRootKey__0 : Py.Obj :=
  Py.univ.Sequence

/-- rfc8649.py:27-30 `HashedRootKey.componentType = ...` -/
def HashedRootKey : Py.Obj :=
  Rfc8649.HashedRootKey__0.setComponentType (Py.NamedTypes [
    Py.NamedType "hashAlg" Rfc5280.AlgorithmIdentifier.call,
    Py.NamedType "hashValue" Py.univ.OctetString.call])

/-- rfc8649.py:36-38 -/
def _certificateExtensionsMapUpdate : Py.Entries :=
  [(Rfc8649.id_ce_hashOfRootKey.value, Rfc8649.HashedRootKey.call.ty)]

/-- Modules of this package imported by rfc8649.py, in textual order. -/
def imports : List Py.Ident :=
  [(Py.mod 15 "rfc5280")]

/-- Dictionary operations executed when rfc8649.py is imported, in program order. -/
def effects : List Py.Effect :=
  [.create (Py.map 144 "rfc8649._certificateExtensionsMapUpdate") Rfc8649._certificateExtensionsMapUpdate /- rfc8649.py:36-38 -/,
   .update (Py.map 48 "rfc5280.certificateExtensionsMap") Rfc8649._certificateExtensionsMapUpdate /- rfc8649.py:40 -/]

/-- ASN.1 types rfc8649.py binds at module level (final version of each name), plus nested classes. -/
def classes : List (String × Py.Obj) :=
  [("rfc8649.HashedRootKey", Rfc8649.HashedRootKey)]

/-- pyasn1 instances rfc8649.py binds at module level. -/
def objects : List (String × Py.Obj) :=
  [("rfc8649.id_ce_hashOfRootKey", Rfc8649.id_ce_hashOfRootKey)]

/-- pyasn1 instances rfc8649.py fills in by item assignment. -/
def protos : List (String × Py.Proto) :=
  []

/-- Every place of rfc8649.py that instantiates a class of the package: where, the class as it is
at that point, and the class as it is when the import has finished. -/
def snapshots : List Py.Snapshot :=
  [⟨"rfc8649.py:28", Rfc5280.AlgorithmIdentifier, Rfc5280.AlgorithmIdentifier⟩,
   ⟨"rfc8649.py:37", Rfc8649.HashedRootKey, Rfc8649.HashedRootKey⟩]

/-- Functions rfc8649.py defines. -/
def builders : List (String × (List Py.OidArg → Py.Obj)) :=
  []

def asModule : Py.Module :=
  { id := (Py.mod 124 "rfc8649"), imports := imports, effects := effects, classes := classes, objects := objects, protos := protos, snapshots := snapshots, builders := builders }

end Rfc8649
end Verif
