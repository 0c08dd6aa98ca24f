import Verif.Py.Obj
import Verif.Gen.Rfc5280
import Verif.Gen.Rfc5751

/-! Transcription of /repo/pyasn1_modules/rfc4010.py (generated by tools/gen.py). -/

namespace Verif
namespace Rfc4010

/-- rfc4010.py:22 -/
def id_seedCBC : Py.Obj :=
  (Py.univ.ObjectIdentifier.call.callArcs [1, 2, 410, 200004, 1, 4])

/-- rfc4010.py:25 -/
def id_npki_app_cmsSeed_wrap : Py.Obj :=
  (Py.univ.ObjectIdentifier.call.callArcs [1, 2, 410, 200004, 7, 1, 1, 1])

/-- rfc4010.py:28-29 `class SeedIV(univ.OctetString)` -/
def SeedIV : Py.Obj :=
  Py.univ.OctetString.setSubtypeSpec (Py.ValueSizeConstraint (.fin 16) (.fin 16))

/-- rfc4010.py:32-33 `class SeedCBCParameter(SeedIV)` -/
def SeedCBCParameter : Py.Obj :=
  Rfc4010.SeedIV

/-- rfc4010.py:36-37 `class SeedSMimeCapability(univ.Null)` -/
def SeedSMimeCapability : Py.Obj :=
  Py.univ.Null

/-- rfc4010.py:42-45 -/
def _algorithmIdentifierMapUpdate : Py.Entries :=
  [(Rfc4010.id_seedCBC.value, Rfc4010.SeedCBCParameter.call.ty),
    (Rfc4010.id_npki_app_cmsSeed_wrap.value, (Py.univ.Null.call.callStr "").ty)]

/-- rfc4010.py:52-56 -/
def _smimeCapabilityMapUpdate : Py.Entries :=
  [(Rfc4010.id_seedCBC.value, Rfc4010.SeedSMimeCapability.call.ty),
    (Rfc4010.id_npki_app_cmsSeed_wrap.value, Rfc4010.SeedSMimeCapability.call.ty)]

/-- Modules of this package imported by rfc4010.py, in textual order. -/
def imports : List Py.Ident :=
  [(Py.mod 15 "rfc5280"), (Py.mod 20 "rfc5751")]

/-- Dictionary operations executed when rfc4010.py is imported, in program order. -/
def effects : List Py.Effect :=
  [.create (Py.map 55 "rfc4010._algorithmIdentifierMapUpdate") Rfc4010._algorithmIdentifierMapUpdate /- rfc4010.py:42-45 -/,
   .update (Py.map 3 "rfc5280.algorithmIdentifierMap") Rfc4010._algorithmIdentifierMapUpdate /- rfc4010.py:47 -/,
   .create (Py.map 56 "rfc4010._smimeCapabilityMapUpdate") Rfc4010._smimeCapabilityMapUpdate /- rfc4010.py:52-56 -/,
   .update (Py.map 14 "rfc5751.smimeCapabilityMap") Rfc4010._smimeCapabilityMapUpdate /- rfc4010.py:58 -/]

/-- ASN.1 types rfc4010.py binds at module level (final version of each name), plus nested classes. -/
def classes : List (String × Py.Obj) :=
  [("rfc4010.SeedIV", Rfc4010.SeedIV),
   ("rfc4010.SeedCBCParameter", Rfc4010.SeedCBCParameter),
   ("rfc4010.SeedSMimeCapability", Rfc4010.SeedSMimeCapability)]

/-- pyasn1 instances rfc4010.py binds at module level. -/
def objects : List (String × Py.Obj) :=
  [("rfc4010.id_seedCBC", Rfc4010.id_seedCBC),
   ("rfc4010.id_npki_app_cmsSeed_wrap", Rfc4010.id_npki_app_cmsSeed_wrap)]

/-- pyasn1 instances rfc4010.py fills in by item assignment. -/
def protos : List (String × Py.Proto) :=
  []

/-- Every place of rfc4010.py that instantiates a class of the package: where, the class as it is
at that point, and the class as it is when the import has finished. -/
def snapshots : List Py.Snapshot :=
  [⟨"rfc4010.py:43", Rfc4010.SeedCBCParameter, Rfc4010.SeedCBCParameter⟩,
   ⟨"rfc4010.py:53", Rfc4010.SeedSMimeCapability, Rfc4010.SeedSMimeCapability⟩,
   ⟨"rfc4010.py:54", Rfc4010.SeedSMimeCapability, Rfc4010.SeedSMimeCapability⟩]

/-- Functions rfc4010.py defines. -/
def builders : List (String × (List Py.OidArg → Py.Obj)) :=
  []

def asModule : Py.Module :=
  { id := (Py.mod 52 "rfc4010"), imports := imports, effects := effects, classes := classes, objects := objects, protos := protos, snapshots := snapshots, builders := builders }

end Rfc4010
end Verif
