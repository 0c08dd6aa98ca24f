import Verif.Py.Obj
import Verif.Gen.Rfc5280

/-! Transcription of /repo/pyasn1_modules/rfc3537.py (generated by tools/gen.py). -/

namespace Verif
namespace Rfc3537

/-- rfc3537.py:21 -/
def id_alg_HMACwith3DESwrap : Py.Obj :=
  (Py.univ.ObjectIdentifier.call.callArcs [1, 2, 840, 113549, 1, 9, 16, 3, 11])

/-- rfc3537.py:24 -/
def id_alg_HMACwithAESwrap : Py.Obj :=
  (Py.univ.ObjectIdentifier.call.callArcs [1, 2, 840, 113549, 1, 9, 16, 3, 12])

/-- rfc3537.py:29-32 -/
def _algorithmIdentifierMapUpdate : Py.Entries :=
  [(Rfc3537.id_alg_HMACwith3DESwrap.value, (Py.univ.Null.call.callStr "").ty),
    (Rfc3537.id_alg_HMACwithAESwrap.value, (Py.univ.Null.call.callStr "").ty)]

/-- Modules of this package imported by rfc3537.py, in textual order. -/
def imports : List Py.Ident :=
  [(Py.mod 15 "rfc5280")]

/-- Dictionary operations executed when rfc3537.py is imported, in program order. -/
def effects : List Py.Effect :=
  [.create (Py.map 43 "rfc3537._algorithmIdentifierMapUpdate") Rfc3537._algorithmIdentifierMapUpdate /- rfc3537.py:29-32 -/,
   .update (Py.map 3 "rfc5280.algorithmIdentifierMap") Rfc3537._algorithmIdentifierMapUpdate /- rfc3537.py:34 -/]

/-- ASN.1 types rfc3537.py binds at module level (final version of each name), plus nested classes. -/
def classes : List (String × Py.Obj) :=
  []

/-- pyasn1 instances rfc3537.py binds at module level. -/
def objects : List (String × Py.Obj) :=
  [("rfc3537.id_alg_HMACwith3DESwrap", Rfc3537.id_alg_HMACwith3DESwrap),
   ("rfc3537.id_alg_HMACwithAESwrap", Rfc3537.id_alg_HMACwithAESwrap)]

/-- pyasn1 instances rfc3537.py fills in by item assignment. -/
def protos : List (String × Py.Proto) :=
  []

/-- Every place of rfc3537.py that instantiates a class of the package: where, the class as it is
at that point, and the class as it is when the import has finished. -/
def snapshots : List Py.Snapshot :=
  []

/-- Functions rfc3537.py defines. -/
def builders : List (String × (List Py.OidArg → Py.Obj)) :=
  []

def asModule : Py.Module :=
  { id := (Py.mod 41 "rfc3537"), imports := imports, effects := effects, classes := classes, objects := objects, protos := protos, snapshots := snapshots, builders := builders }

end Rfc3537
end Verif
