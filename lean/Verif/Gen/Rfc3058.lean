import Verif.Py.Obj
import Verif.Gen.Rfc5280

/-! Transcription of /repo/pyasn1_modules/rfc3058.py (generated by tools/gen.py). -/

namespace Verif
namespace Rfc3058

/-- rfc3058.py:22 -/
def id_IDEA_CBC : Py.Obj :=
  (Py.univ.ObjectIdentifier.call.callArcs [1, 3, 6, 1, 4, 1, 188, 7, 1, 1, 2])

/-- rfc3058.py:25 -/
def id_alg_CMSIDEAwrap : Py.Obj :=
  (Py.univ.ObjectIdentifier.call.callArcs [1, 3, 6, 1, 4, 1, 188, 7, 1, 1, 6])

/-- rfc3058.py:28-32 `class IDEA_CBCPar(univ.Sequence)` -/
def IDEA_CBCPar : Py.Obj :=
  Py.univ.Sequence.setComponentType (Py.NamedTypes [
    Py.OptionalNamedType "iv" Py.univ.OctetString.call])

/-- rfc3058.py:37-40 -/
def _algorithmIdentifierMapUpdate : Py.Entries :=
  [(Rfc3058.id_IDEA_CBC.value, Rfc3058.IDEA_CBCPar.call.ty),
    (Rfc3058.id_alg_CMSIDEAwrap.value, (Py.univ.Null.call.callStr "").ty)]

/-- Modules of this package imported by rfc3058.py, in textual order. -/
def imports : List Py.Ident :=
  [(Py.mod 15 "rfc5280")]

/-- Dictionary operations executed when rfc3058.py is imported, in program order. -/
def effects : List Py.Effect :=
  [.create (Py.map 37 "rfc3058._algorithmIdentifierMapUpdate") Rfc3058._algorithmIdentifierMapUpdate /- rfc3058.py:37-40 -/,
   .update (Py.map 3 "rfc5280.algorithmIdentifierMap") Rfc3058._algorithmIdentifierMapUpdate /- rfc3058.py:42 -/]

/-- ASN.1 types rfc3058.py binds at module level (final version of each name), plus nested classes. -/
def classes : List (String × Py.Obj) :=
  [("rfc3058.IDEA_CBCPar", Rfc3058.IDEA_CBCPar)]

/-- pyasn1 instances rfc3058.py binds at module level. -/
def objects : List (String × Py.Obj) :=
  [("rfc3058.id_IDEA_CBC", Rfc3058.id_IDEA_CBC),
   ("rfc3058.id_alg_CMSIDEAwrap", Rfc3058.id_alg_CMSIDEAwrap)]

/-- pyasn1 instances rfc3058.py fills in by item assignment. -/
def protos : List (String × Py.Proto) :=
  []

/-- Every place of rfc3058.py that instantiates a class of the package: where, the class as it is
at that point, and the class as it is when the import has finished. -/
def snapshots : List Py.Snapshot :=
  [⟨"rfc3058.py:38", Rfc3058.IDEA_CBCPar, Rfc3058.IDEA_CBCPar⟩]

/-- Functions rfc3058.py defines. -/
def builders : List (String × (List Py.OidArg → Py.Obj)) :=
  []

def asModule : Py.Module :=
  { id := (Py.mod 26 "rfc3058"), imports := imports, effects := effects, classes := classes, objects := objects, protos := protos, snapshots := snapshots, builders := builders }

end Rfc3058
end Verif
