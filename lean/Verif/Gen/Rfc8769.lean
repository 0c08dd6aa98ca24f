import Verif.Py.Obj

/-! Transcription of /repo/pyasn1_modules/rfc8769.py (generated by tools/gen.py). -/

namespace Verif
namespace Rfc8769

/-- rfc8769.py:18 -/
def id_ct_cbor : Py.Obj :=
  (Py.univ.ObjectIdentifier.call.callArcs [1, 2, 840, 113549, 1, 9, 16, 1, 44])

/-- rfc8769.py:21 -/
def id_ct_cborSequence : Py.Obj :=
  (Py.univ.ObjectIdentifier.call.callArcs [1, 2, 840, 113549, 1, 9, 16, 1, 45])

/-- Modules of this package imported by rfc8769.py, in textual order. -/
def imports : List Py.Ident :=
  []

/-- Dictionary operations executed when rfc8769.py is imported, in program order. -/
def effects : List Py.Effect :=
  []

/-- ASN.1 types rfc8769.py binds at module level (final version of each name), plus nested classes. -/
def classes : List (String × Py.Obj) :=
  []

/-- pyasn1 instances rfc8769.py binds at module level. -/
def objects : List (String × Py.Obj) :=
  [("rfc8769.id_ct_cbor", Rfc8769.id_ct_cbor),
   ("rfc8769.id_ct_cborSequence", Rfc8769.id_ct_cborSequence)]

/-- pyasn1 instances rfc8769.py fills in by item assignment. -/
def protos : List (String × Py.Proto) :=
  []

/-- Every place of rfc8769.py that instantiates a class of the package: where, the class as it is
at that point, and the class as it is when the import has finished. -/
def snapshots : List Py.Snapshot :=
  []

/-- Functions rfc8769.py defines. -/
def builders : List (String × (List Py.OidArg → Py.Obj)) :=
  []

def asModule : Py.Module :=
  { id := (Py.mod 129 "rfc8769"), imports := imports, effects := effects, classes := classes, objects := objects, protos := protos, snapshots := snapshots, builders := builders }

end Rfc8769
end Verif
