import Verif.Py.Obj

/-! Transcription of /repo/pyasn1_modules/rfc6170.py (generated by tools/gen.py). -/

namespace Verif
namespace Rfc6170

/-- rfc6170.py:17 -/
def id_logo_certImage : Py.Obj :=
  (Py.univ.ObjectIdentifier.call.callArcs [1, 3, 6, 1, 5, 5, 7, 20, 3])

/-- Modules of this package imported by rfc6170.py, in textual order. -/
def imports : List Py.Ident :=
  []

/-- Dictionary operations executed when rfc6170.py is imported, in program order. -/
def effects : List Py.Effect :=
  []

/-- ASN.1 types rfc6170.py binds at module level (final version of each name), plus nested classes. -/
def classes : List (String × Py.Obj) :=
  []

/-- pyasn1 instances rfc6170.py binds at module level. -/
def objects : List (String × Py.Obj) :=
  [("rfc6170.id_logo_certImage", Rfc6170.id_logo_certImage)]

/-- pyasn1 instances rfc6170.py fills in by item assignment. -/
def protos : List (String × Py.Proto) :=
  []

/-- Every place of rfc6170.py that instantiates a class of the package: where, the class as it is
at that point, and the class as it is when the import has finished. -/
def snapshots : List Py.Snapshot :=
  []

/-- Functions rfc6170.py defines. -/
def builders : List (String × (List Py.OidArg → Py.Obj)) :=
  []

def asModule : Py.Module :=
  { id := (Py.mod 45 "rfc6170"), imports := imports, effects := effects, classes := classes, objects := objects, protos := protos, snapshots := snapshots, builders := builders }

end Rfc6170
end Verif
