import Verif.Py.Obj
import Verif.Gen.Rfc5755

/-! Transcription of /repo/pyasn1_modules/rfc3114.py (generated by tools/gen.py). -/

namespace Verif
namespace Rfc3114

/-- rfc3114.py:22 -/
def id_smime : Py.Obj :=
  (Py.univ.ObjectIdentifier.call.callArcs [1, 2, 840, 113549, 1, 9, 16])

/-- rfc3114.py:24 -/
def id_tsp : Py.Obj :=
  (Rfc3114.id_smime.addArcs [7])

/-- rfc3114.py:26 -/
def id_tsp_TEST_Amoco : Py.Obj :=
  (Rfc3114.id_tsp.addArcs [1])

/-- rfc3114.py:28-33 `class Amoco_SecurityClassification(univ.Integer)` -/
def Amoco_SecurityClassification : Py.Obj :=
  Py.univ.Integer.setNamedValues (Py.NamedValues [("amoco-general", 6), ("amoco-confidential", 7), ("amoco-highly-confidential", 8)])

/-- rfc3114.py:36 -/
def id_tsp_TEST_Caterpillar : Py.Obj :=
  (Rfc3114.id_tsp.addArcs [2])

/-- rfc3114.py:38-44 `class Caterpillar_SecurityClassification(univ.Integer)` -/
def Caterpillar_SecurityClassification : Py.Obj :=
  Py.univ.Integer.setNamedValues (Py.NamedValues [("caterpillar-public", 6), ("caterpillar-green", 7), ("caterpillar-yellow", 8), ("caterpillar-red", 9)])

/-- rfc3114.py:47 -/
def id_tsp_TEST_Whirlpool : Py.Obj :=
  (Rfc3114.id_tsp.addArcs [3])

/-- rfc3114.py:49-54 `class Whirlpool_SecurityClassification(univ.Integer)` -/
def Whirlpool_SecurityClassification : Py.Obj :=
  Py.univ.Integer.setNamedValues (Py.NamedValues [("whirlpool-public", 6), ("whirlpool-internal", 7), ("whirlpool-confidential", 8)])

/-- rfc3114.py:57 -/
def id_tsp_TEST_Whirlpool_Categories : Py.Obj :=
  (Rfc3114.id_tsp.addArcs [4])

/-- rfc3114.py:59-60 `class SecurityCategoryValues(univ.SequenceOf)` -/
def SecurityCategoryValues : Py.Obj :=
  Py.univ.SequenceOf.setComponentTypeOf Py.char.UTF8String.call

/-- rfc3114.py:73-75 -/
def _securityCategoryMapUpdate : Py.Entries :=
  [(Rfc3114.id_tsp_TEST_Whirlpool_Categories.value, Rfc3114.SecurityCategoryValues.call.ty)]

/-- Modules of this package imported by rfc3114.py, in textual order. -/
def imports : List Py.Ident :=
  [(Py.mod 27 "rfc5755")]

/-- Dictionary operations executed when rfc3114.py is imported, in program order. -/
def effects : List Py.Effect :=
  [.create (Py.map 38 "rfc3114._securityCategoryMapUpdate") Rfc3114._securityCategoryMapUpdate /- rfc3114.py:73-75 -/,
   .update (Py.map 19 "rfc5755.securityCategoryMap") Rfc3114._securityCategoryMapUpdate /- rfc3114.py:77 -/]

/-- ASN.1 types rfc3114.py binds at module level (final version of each name), plus nested classes. -/
def classes : List (String × Py.Obj) :=
  [("rfc3114.Amoco_SecurityClassification", Rfc3114.Amoco_SecurityClassification),
   ("rfc3114.Caterpillar_SecurityClassification", Rfc3114.Caterpillar_SecurityClassification),
   ("rfc3114.Whirlpool_SecurityClassification", Rfc3114.Whirlpool_SecurityClassification),
   ("rfc3114.SecurityCategoryValues", Rfc3114.SecurityCategoryValues)]

/-- pyasn1 instances rfc3114.py binds at module level. -/
def objects : List (String × Py.Obj) :=
  [("rfc3114.id_smime", Rfc3114.id_smime),
   ("rfc3114.id_tsp", Rfc3114.id_tsp),
   ("rfc3114.id_tsp_TEST_Amoco", Rfc3114.id_tsp_TEST_Amoco),
   ("rfc3114.id_tsp_TEST_Caterpillar", Rfc3114.id_tsp_TEST_Caterpillar),
   ("rfc3114.id_tsp_TEST_Whirlpool", Rfc3114.id_tsp_TEST_Whirlpool),
   ("rfc3114.id_tsp_TEST_Whirlpool_Categories", Rfc3114.id_tsp_TEST_Whirlpool_Categories)]

/-- pyasn1 instances rfc3114.py fills in by item assignment. -/
def protos : List (String × Py.Proto) :=
  []

/-- Every place of rfc3114.py that instantiates a class of the package: where, the class as it is
at that point, and the class as it is when the import has finished. -/
def snapshots : List Py.Snapshot :=
  [⟨"rfc3114.py:74", Rfc3114.SecurityCategoryValues, Rfc3114.SecurityCategoryValues⟩]

/-- Functions rfc3114.py defines. -/
def builders : List (String × (List Py.OidArg → Py.Obj)) :=
  []

def asModule : Py.Module :=
  { id := (Py.mod 28 "rfc3114"), imports := imports, effects := effects, classes := classes, objects := objects, protos := protos, snapshots := snapshots, builders := builders }

end Rfc3114
end Verif
