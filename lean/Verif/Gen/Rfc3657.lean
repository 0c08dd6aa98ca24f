import Verif.Py.Obj
import Verif.Gen.Rfc5280
import Verif.Gen.Rfc5751

/-! Transcription of /repo/pyasn1_modules/rfc3657.py (generated by tools/gen.py). -/

namespace Verif
namespace Rfc3657

/-- rfc3657.py:22 -/
def id_camellia128_cbc : Py.Obj :=
  (Py.univ.ObjectIdentifier.call.callArcs [1, 2, 392, 200011, 61, 1, 1, 1, 2])

/-- rfc3657.py:24 -/
def id_camellia192_cbc : Py.Obj :=
  (Py.univ.ObjectIdentifier.call.callArcs [1, 2, 392, 200011, 61, 1, 1, 1, 3])

/-- rfc3657.py:26 -/
def id_camellia256_cbc : Py.Obj :=
  (Py.univ.ObjectIdentifier.call.callArcs [1, 2, 392, 200011, 61, 1, 1, 1, 4])

/-- rfc3657.py:28 -/
def id_camellia128_wrap : Py.Obj :=
  (Py.univ.ObjectIdentifier.call.callArcs [1, 2, 392, 200011, 61, 1, 1, 3, 2])

/-- rfc3657.py:30 -/
def id_camellia192_wrap : Py.Obj :=
  (Py.univ.ObjectIdentifier.call.callArcs [1, 2, 392, 200011, 61, 1, 1, 3, 3])

/-- rfc3657.py:32 -/
def id_camellia256_wrap : Py.Obj :=
  (Py.univ.ObjectIdentifier.call.callArcs [1, 2, 392, 200011, 61, 1, 1, 3, 4])

/-- rfc3657.py:36-37 `class Camellia_IV(univ.OctetString)` -/
def Camellia_IV : Py.Obj :=
  Py.univ.OctetString.setSubtypeSpec (Py.ValueSizeConstraint (.fin 16) (.fin 16))

/-- rfc3657.py:40-41 `class CamelliaSMimeCapability(univ.Null)` -/
def CamelliaSMimeCapability : Py.Obj :=
  Py.univ.Null

/-- rfc3657.py:46-50 -/
def _algorithmIdentifierMapUpdate : Py.Entries :=
  [(Rfc3657.id_camellia128_cbc.value, Rfc3657.Camellia_IV.call.ty),
    (Rfc3657.id_camellia192_cbc.value, Rfc3657.Camellia_IV.call.ty),
    (Rfc3657.id_camellia256_cbc.value, Rfc3657.Camellia_IV.call.ty)]

/-- rfc3657.py:57-64 -/
def _smimeCapabilityMapUpdate : Py.Entries :=
  [(Rfc3657.id_camellia128_cbc.value, Rfc3657.CamelliaSMimeCapability.call.ty),
    (Rfc3657.id_camellia192_cbc.value, Rfc3657.CamelliaSMimeCapability.call.ty),
    (Rfc3657.id_camellia256_cbc.value, Rfc3657.CamelliaSMimeCapability.call.ty),
    (Rfc3657.id_camellia128_wrap.value, Rfc3657.CamelliaSMimeCapability.call.ty),
    (Rfc3657.id_camellia192_wrap.value, Rfc3657.CamelliaSMimeCapability.call.ty),
    (Rfc3657.id_camellia256_wrap.value, Rfc3657.CamelliaSMimeCapability.call.ty)]

/-- Modules of this package imported by rfc3657.py, in textual order. -/
def imports : List Py.Ident :=
  [(Py.mod 15 "rfc5280"), (Py.mod 20 "rfc5751")]

/-- Dictionary operations executed when rfc3657.py is imported, in program order. -/
def effects : List Py.Effect :=
  [.create (Py.map 45 "rfc3657._algorithmIdentifierMapUpdate") Rfc3657._algorithmIdentifierMapUpdate /- rfc3657.py:46-50 -/,
   .update (Py.map 3 "rfc5280.algorithmIdentifierMap") Rfc3657._algorithmIdentifierMapUpdate /- rfc3657.py:52 -/,
   .create (Py.map 46 "rfc3657._smimeCapabilityMapUpdate") Rfc3657._smimeCapabilityMapUpdate /- rfc3657.py:57-64 -/,
   .update (Py.map 14 "rfc5751.smimeCapabilityMap") Rfc3657._smimeCapabilityMapUpdate /- rfc3657.py:66 -/]

/-- ASN.1 types rfc3657.py binds at module level (final version of each name), plus nested classes. -/
def classes : List (String × Py.Obj) :=
  [("rfc3657.Camellia_IV", Rfc3657.Camellia_IV),
   ("rfc3657.CamelliaSMimeCapability", Rfc3657.CamelliaSMimeCapability)]

/-- pyasn1 instances rfc3657.py binds at module level. -/
def objects : List (String × Py.Obj) :=
  [("rfc3657.id_camellia128_cbc", Rfc3657.id_camellia128_cbc),
   ("rfc3657.id_camellia192_cbc", Rfc3657.id_camellia192_cbc),
   ("rfc3657.id_camellia256_cbc", Rfc3657.id_camellia256_cbc),
   ("rfc3657.id_camellia128_wrap", Rfc3657.id_camellia128_wrap),
   ("rfc3657.id_camellia192_wrap", Rfc3657.id_camellia192_wrap),
   ("rfc3657.id_camellia256_wrap", Rfc3657.id_camellia256_wrap)]

/-- pyasn1 instances rfc3657.py fills in by item assignment. -/
def protos : List (String × Py.Proto) :=
  []

/-- Every place of rfc3657.py that instantiates a class of the package: where, the class as it is
at that point, and the class as it is when the import has finished. -/
def snapshots : List Py.Snapshot :=
  [⟨"rfc3657.py:47", Rfc3657.Camellia_IV, Rfc3657.Camellia_IV⟩,
   ⟨"rfc3657.py:48", Rfc3657.Camellia_IV, Rfc3657.Camellia_IV⟩,
   ⟨"rfc3657.py:49", Rfc3657.Camellia_IV, Rfc3657.Camellia_IV⟩,
   ⟨"rfc3657.py:58", Rfc3657.CamelliaSMimeCapability, Rfc3657.CamelliaSMimeCapability⟩,
   ⟨"rfc3657.py:59", Rfc3657.CamelliaSMimeCapability, Rfc3657.CamelliaSMimeCapability⟩,
   ⟨"rfc3657.py:60", Rfc3657.CamelliaSMimeCapability, Rfc3657.CamelliaSMimeCapability⟩,
   ⟨"rfc3657.py:61", Rfc3657.CamelliaSMimeCapability, Rfc3657.CamelliaSMimeCapability⟩,
   ⟨"rfc3657.py:62", Rfc3657.CamelliaSMimeCapability, Rfc3657.CamelliaSMimeCapability⟩,
   ⟨"rfc3657.py:63", Rfc3657.CamelliaSMimeCapability, Rfc3657.CamelliaSMimeCapability⟩]

/-- Functions rfc3657.py defines. -/
def builders : List (String × (List Py.OidArg → Py.Obj)) :=
  []

def asModule : Py.Module :=
  { id := (Py.mod 44 "rfc3657"), imports := imports, effects := effects, classes := classes, objects := objects, protos := protos, snapshots := snapshots, builders := builders }

end Rfc3657
end Verif
