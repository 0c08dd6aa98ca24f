import Verif.Py.Obj

/-! Transcription of /repo/pyasn1_modules/rfc8209.py (generated by tools/gen.py). -/

namespace Verif
namespace Rfc8209

/-- rfc8209.py:18 -/
def id_kp : Py.Obj :=
  (Py.univ.ObjectIdentifier.call.callArcs [1, 3, 6, 1, 5, 5, 7, 3])

/-- rfc8209.py:20 -/
def id_kp_bgpsec_router : Py.Obj :=
  (Rfc8209.id_kp.addArcs [30])

/-- Modules of this package imported by rfc8209.py, in textual order. -/
def imports : List Py.Ident :=
  []

/-- Dictionary operations executed when rfc8209.py is imported, in program order. -/
def effects : List Py.Effect :=
  []

/-- ASN.1 types rfc8209.py binds at module level (final version of each name), plus nested classes. -/
def classes : List (String × Py.Obj) :=
  []

/-- pyasn1 instances rfc8209.py binds at module level. -/
def objects : List (String × Py.Obj) :=
  [("rfc8209.id_kp", Rfc8209.id_kp),
   ("rfc8209.id_kp_bgpsec_router", Rfc8209.id_kp_bgpsec_router)]

/-- pyasn1 instances rfc8209.py fills in by item assignment. -/
def protos : List (String × Py.Proto) :=
  []

/-- Every place of rfc8209.py that instantiates a class of the package: where, the class as it is
at that point, and the class as it is when the import has finished. -/
def snapshots : List Py.Snapshot :=
  []

/-- Functions rfc8209.py defines. -/
def builders : List (String × (List Py.OidArg → Py.Obj)) :=
  []

def asModule : Py.Module :=
  { id := (Py.mod 112 "rfc8209"), imports := imports, effects := effects, classes := classes, objects := objects, protos := protos, snapshots := snapshots, builders := builders }

end Rfc8209
end Verif
