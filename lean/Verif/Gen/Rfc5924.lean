import Verif.Py.Obj

/-! Transcription of /repo/pyasn1_modules/rfc5924.py (generated by tools/gen.py). -/

namespace Verif
namespace Rfc5924

/-- rfc5924.py:17 -/
def id_kp : Py.Obj :=
  (Py.univ.ObjectIdentifier.call.callArcs [1, 3, 6, 1, 5, 5, 7, 3])

/-- rfc5924.py:19 -/
def id_kp_sipDomain : Py.Obj :=
  (Rfc5924.id_kp.addArcs [20])

/-- Modules of this package imported by rfc5924.py, in textual order. -/
def imports : List Py.Ident :=
  []

/-- Dictionary operations executed when rfc5924.py is imported, in program order. -/
def effects : List Py.Effect :=
  []

/-- ASN.1 types rfc5924.py binds at module level (final version of each name), plus nested classes. -/
def classes : List (String × Py.Obj) :=
  []

/-- pyasn1 instances rfc5924.py binds at module level. -/
def objects : List (String × Py.Obj) :=
  [("rfc5924.id_kp", Rfc5924.id_kp),
   ("rfc5924.id_kp_sipDomain", Rfc5924.id_kp_sipDomain)]

/-- pyasn1 instances rfc5924.py fills in by item assignment. -/
def protos : List (String × Py.Proto) :=
  []

/-- Every place of rfc5924.py that instantiates a class of the package: where, the class as it is
at that point, and the class as it is when the import has finished. -/
def snapshots : List Py.Snapshot :=
  []

/-- Functions rfc5924.py defines. -/
def builders : List (String × (List Py.OidArg → Py.Obj)) :=
  []

def asModule : Py.Module :=
  { id := (Py.mod 82 "rfc5924"), imports := imports, effects := effects, classes := classes, objects := objects, protos := protos, snapshots := snapshots, builders := builders }

end Rfc5924
end Verif
