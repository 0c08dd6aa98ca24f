import Verif.Py.Obj
import Verif.Gen.Rfc5280
import Verif.Gen.Rfc5755

/-! Transcription of /repo/pyasn1_modules/rfc5913.py (generated by tools/gen.py). -/

namespace Verif
namespace Rfc5913

/-- rfc5913.py:22 -/
def MAX : Py.Bound :=
  .inf

/-- rfc5913.py:27 -/
def id_pe_clearanceConstraints : Py.Obj :=
  (Py.univ.ObjectIdentifier.call.callArcs [1, 3, 6, 1, 5, 5, 7, 1, 21])

/-- rfc5913.py:29 alias of `id_pe_clearanceConstraints` -/
def id_pe_authorityClearanceConstraints : Py.Obj :=
  Rfc5913.id_pe_clearanceConstraints

/-- rfc5913.py:32-34 `class AuthorityClearanceConstraints(univ.SequenceOf)` -/
def AuthorityClearanceConstraints : Py.Obj :=
  (Py.univ.SequenceOf.setComponentTypeOf Rfc5755.Clearance.call).setSubtypeSpec (Py.ValueSizeConstraint (.fin 1) Rfc5913.MAX)

/-- rfc5913.py:40-42 -/
def _certificateExtensionsMapUpdate : Py.Entries :=
  [(Rfc5913.id_pe_clearanceConstraints.value, Rfc5913.AuthorityClearanceConstraints.call.ty)]

/-- Modules of this package imported by rfc5913.py, in textual order. -/
def imports : List Py.Ident :=
  [(Py.mod 15 "rfc5280"), (Py.mod 27 "rfc5755")]

/-- Dictionary operations executed when rfc5913.py is imported, in program order. -/
def effects : List Py.Effect :=
  [.create (Py.map 93 "rfc5913._certificateExtensionsMapUpdate") Rfc5913._certificateExtensionsMapUpdate /- rfc5913.py:40-42 -/,
   .update (Py.map 48 "rfc5280.certificateExtensionsMap") Rfc5913._certificateExtensionsMapUpdate /- rfc5913.py:44 -/]

/-- ASN.1 types rfc5913.py binds at module level (final version of each name), plus nested classes. -/
def classes : List (String × Py.Obj) :=
  [("rfc5913.AuthorityClearanceConstraints", Rfc5913.AuthorityClearanceConstraints)]

/-- pyasn1 instances rfc5913.py binds at module level. -/
def objects : List (String × Py.Obj) :=
  [("rfc5913.id_pe_clearanceConstraints", Rfc5913.id_pe_clearanceConstraints),
   ("rfc5913.id_pe_authorityClearanceConstraints", Rfc5913.id_pe_authorityClearanceConstraints)]

/-- pyasn1 instances rfc5913.py fills in by item assignment. -/
def protos : List (String × Py.Proto) :=
  []

/-- Every place of rfc5913.py that instantiates a class of the package: where, the class as it is
at that point, and the class as it is when the import has finished. -/
def snapshots : List Py.Snapshot :=
  [⟨"rfc5913.py:33", Rfc5755.Clearance, Rfc5755.Clearance⟩,
   ⟨"rfc5913.py:41", Rfc5913.AuthorityClearanceConstraints, Rfc5913.AuthorityClearanceConstraints⟩]

/-- Functions rfc5913.py defines. -/
def builders : List (String × (List Py.OidArg → Py.Obj)) :=
  []

def asModule : Py.Module :=
  { id := (Py.mod 77 "rfc5913"), imports := imports, effects := effects, classes := classes, objects := objects, protos := protos, snapshots := snapshots, builders := builders }

end Rfc5913
end Verif
