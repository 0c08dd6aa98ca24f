import Verif.Py.Obj
import Verif.Gen.Rfc5280

/-! Transcription of /repo/pyasn1_modules/rfc5916.py (generated by tools/gen.py). -/

namespace Verif
namespace Rfc5916

/-- rfc5916.py:22 -/
def id_deviceOwner : Py.Obj :=
  (Py.univ.ObjectIdentifier.call.callArcs [2, 16, 840, 1, 101, 2, 1, 5, 69])

/-- rfc5916.py:24 -/
def at_deviceOwner__0 : Py.Proto :=
  { obj := Rfc5280.Attribute.call }

/-- rfc5916.py:25 `at_deviceOwner['type'] = ...` -/
def at_deviceOwner__1 : Py.Proto :=
  Rfc5916.at_deviceOwner__0.set "type" (.obj Rfc5916.id_deviceOwner)

/-- rfc5916.py:26 `at_deviceOwner['values'][0] = ...` -/
def at_deviceOwner : Py.Proto :=
  Rfc5916.at_deviceOwner__1.set "values" (.elem0 Py.univ.ObjectIdentifier.call)

/-- rfc5916.py:31-33 -/
def _certificateAttributesMapUpdate : Py.Entries :=
  [(Rfc5916.id_deviceOwner.value, Py.univ.ObjectIdentifier.call.ty)]

/-- Modules of this package imported by rfc5916.py, in textual order. -/
def imports : List Py.Ident :=
  [(Py.mod 15 "rfc5280")]

/-- Dictionary operations executed when rfc5916.py is imported, in program order. -/
def effects : List Py.Effect :=
  [.create (Py.map 94 "rfc5916._certificateAttributesMapUpdate") Rfc5916._certificateAttributesMapUpdate /- rfc5916.py:31-33 -/,
   .update (Py.map 4 "rfc5280.certificateAttributesMap") Rfc5916._certificateAttributesMapUpdate /- rfc5916.py:35 -/]

/-- ASN.1 types rfc5916.py binds at module level (final version of each name), plus nested classes. -/
def classes : List (String × Py.Obj) :=
  []

/-- pyasn1 instances rfc5916.py binds at module level. -/
def objects : List (String × Py.Obj) :=
  [("rfc5916.id_deviceOwner", Rfc5916.id_deviceOwner)]

/-- pyasn1 instances rfc5916.py fills in by item assignment. -/
def protos : List (String × Py.Proto) :=
  [("rfc5916.at_deviceOwner", Rfc5916.at_deviceOwner)]

/-- Every place of rfc5916.py that instantiates a class of the package: where, the class as it is
at that point, and the class as it is when the import has finished. -/
def snapshots : List Py.Snapshot :=
  [⟨"rfc5916.py:24", Rfc5280.Attribute, Rfc5280.Attribute⟩]

/-- Functions rfc5916.py defines. -/
def builders : List (String × (List Py.OidArg → Py.Obj)) :=
  []

def asModule : Py.Module :=
  { id := (Py.mod 80 "rfc5916"), imports := imports, effects := effects, classes := classes, objects := objects, protos := protos, snapshots := snapshots, builders := builders }

end Rfc5916
end Verif
