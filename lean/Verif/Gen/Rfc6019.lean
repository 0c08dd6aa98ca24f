import Verif.Py.Obj
import Verif.Gen.Rfc5652

/-! Transcription of /repo/pyasn1_modules/rfc6019.py (generated by tools/gen.py). -/

namespace Verif
namespace Rfc6019

/-- rfc6019.py:19 -/
def MAX : Py.Bound :=
  .inf

/-- rfc6019.py:24-25 `class BinaryTime(univ.Integer)` -/
def BinaryTime__0 : Py.Obj :=
  Py.univ.Integer

/-- rfc6019.py:27 `BinaryTime.subtypeSpec = ...` -/
def BinaryTime : Py.Obj :=
  Rfc6019.BinaryTime__0.setSubtypeSpec (Py.ValueRangeConstraint (.fin 0) Rfc6019.MAX)

/-- rfc6019.py:32 -/
def id_aa_binarySigningTime : Py.Obj :=
  (Py.univ.ObjectIdentifier.call.callArcs [1, 2, 840, 113549, 1, 9, 16, 2, 46])

/-- rfc6019.py:34-35 `class BinarySigningTime(BinaryTime)` -/
def BinarySigningTime : Py.Obj :=
  Rfc6019.BinaryTime

/-- rfc6019.py:41-43 -/
def _cmsAttributesMapUpdate : Py.Entries :=
  [(Rfc6019.id_aa_binarySigningTime.value, Rfc6019.BinarySigningTime.call.ty)]

/-- Modules of this package imported by rfc6019.py, in textual order. -/
def imports : List Py.Ident :=
  [(Py.mod 16 "rfc5652")]

/-- Dictionary operations executed when rfc6019.py is imported, in program order. -/
def effects : List Py.Effect :=
  [.create (Py.map 103 "rfc6019._cmsAttributesMapUpdate") Rfc6019._cmsAttributesMapUpdate /- rfc6019.py:41-43 -/,
   .update (Py.map 8 "rfc5652.cmsAttributesMap") Rfc6019._cmsAttributesMapUpdate /- rfc6019.py:45 -/]

/-- ASN.1 types rfc6019.py binds at module level (final version of each name), plus nested classes. -/
def classes : List (String × Py.Obj) :=
  [("rfc6019.BinaryTime", Rfc6019.BinaryTime),
   ("rfc6019.BinarySigningTime", Rfc6019.BinarySigningTime)]

/-- pyasn1 instances rfc6019.py binds at module level. -/
def objects : List (String × Py.Obj) :=
  [("rfc6019.id_aa_binarySigningTime", Rfc6019.id_aa_binarySigningTime)]

/-- pyasn1 instances rfc6019.py fills in by item assignment. -/
def protos : List (String × Py.Proto) :=
  []

/-- Every place of rfc6019.py that instantiates a class of the package: where, the class as it is
at that point, and the class as it is when the import has finished. -/
def snapshots : List Py.Snapshot :=
  [⟨"rfc6019.py:42", Rfc6019.BinarySigningTime, Rfc6019.BinarySigningTime⟩]

/-- Functions rfc6019.py defines. -/
def builders : List (String × (List Py.OidArg → Py.Obj)) :=
  []

def asModule : Py.Module :=
  { id := (Py.mod 86 "rfc6019"), imports := imports, effects := effects, classes := classes, objects := objects, protos := protos, snapshots := snapshots, builders := builders }

end Rfc6019
end Verif
