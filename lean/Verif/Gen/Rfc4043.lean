import Verif.Py.Obj
import Verif.Gen.Rfc5280

/-! Transcription of /repo/pyasn1_modules/rfc4043.py (generated by tools/gen.py). -/

namespace Verif
namespace Rfc4043

/-- rfc4043.py:22 -/
def id_pkix : Py.Obj :=
  (Py.univ.ObjectIdentifier.call.callArcs [1, 3, 6, 1, 5, 5, 7])

/-- rfc4043.py:24 -/
def id_on : Py.Obj :=
  (Rfc4043.id_pkix.addArcs [8])

/-- rfc4043.py:26 -/
def id_on_permanentIdentifier : Py.Obj :=
  (Rfc4043.id_on.addArcs [3])

/-- rfc4043.py:29-33 `class PermanentIdentifier(univ.Sequence)` -/
def PermanentIdentifier : Py.Obj :=
  Py.univ.Sequence.setComponentType (Py.NamedTypes [
    Py.OptionalNamedType "identifierValue" Py.char.UTF8String.call,
    Py.OptionalNamedType "assigner" Py.univ.ObjectIdentifier.call])

/-- rfc4043.py:39-41 -/
def _anotherNameMapUpdate : Py.Entries :=
  [(Rfc4043.id_on_permanentIdentifier.value, Rfc4043.PermanentIdentifier.call.ty)]

/-- Modules of this package imported by rfc4043.py, in textual order. -/
def imports : List Py.Ident :=
  [(Py.mod 15 "rfc5280")]

/-- Dictionary operations executed when rfc4043.py is imported, in program order. -/
def effects : List Py.Effect :=
  [.create (Py.map 57 "rfc4043._anotherNameMapUpdate") Rfc4043._anotherNameMapUpdate /- rfc4043.py:39-41 -/,
   .update (Py.map 6 "rfc5280.anotherNameMap") Rfc4043._anotherNameMapUpdate /- rfc4043.py:43 -/]

/-- ASN.1 types rfc4043.py binds at module level (final version of each name), plus nested classes. -/
def classes : List (String × Py.Obj) :=
  [("rfc4043.PermanentIdentifier", Rfc4043.PermanentIdentifier)]

/-- pyasn1 instances rfc4043.py binds at module level. -/
def objects : List (String × Py.Obj) :=
  [("rfc4043.id_pkix", Rfc4043.id_pkix),
   ("rfc4043.id_on", Rfc4043.id_on),
   ("rfc4043.id_on_permanentIdentifier", Rfc4043.id_on_permanentIdentifier)]

/-- pyasn1 instances rfc4043.py fills in by item assignment. -/
def protos : List (String × Py.Proto) :=
  []

/-- Every place of rfc4043.py that instantiates a class of the package: where, the class as it is
at that point, and the class as it is when the import has finished. -/
def snapshots : List Py.Snapshot :=
  [⟨"rfc4043.py:40", Rfc4043.PermanentIdentifier, Rfc4043.PermanentIdentifier⟩]

/-- Functions rfc4043.py defines. -/
def builders : List (String × (List Py.OidArg → Py.Obj)) :=
  []

def asModule : Py.Module :=
  { id := (Py.mod 53 "rfc4043"), imports := imports, effects := effects, classes := classes, objects := objects, protos := protos, snapshots := snapshots, builders := builders }

end Rfc4043
end Verif
