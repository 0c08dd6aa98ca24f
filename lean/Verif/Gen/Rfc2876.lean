import Verif.Py.Obj
import Verif.Gen.Rfc5280
import Verif.Gen.Rfc5751

/-! Transcription of /repo/pyasn1_modules/rfc2876.py (generated by tools/gen.py). -/

namespace Verif
namespace Rfc2876

/-- rfc2876.py:22 -/
def id_fortezzaConfidentialityAlgorithm : Py.Obj :=
  (Py.univ.ObjectIdentifier.call.callArcs [2, 16, 840, 1, 101, 2, 1, 1, 4])

/-- rfc2876.py:25 -/
def id_fortezzaWrap80 : Py.Obj :=
  (Py.univ.ObjectIdentifier.call.callArcs [2, 16, 840, 1, 101, 2, 1, 1, 23])

/-- rfc2876.py:28 -/
def id_kEAKeyEncryptionAlgorithm : Py.Obj :=
  (Py.univ.ObjectIdentifier.call.callArcs [2, 16, 840, 1, 101, 2, 1, 1, 24])

/-- rfc2876.py:31 -/
def id_keyExchangeAlgorithm : Py.Obj :=
  (Py.univ.ObjectIdentifier.call.callArcs [2, 16, 840, 1, 101, 2, 1, 1, 22])

/-- rfc2876.py:34-37 `class Skipjack_Parm(univ.Sequence)` -/
def Skipjack_Parm : Py.Obj :=
  Py.univ.Sequence.setComponentType (Py.NamedTypes [
    Py.NamedType "initialization-vector" Py.univ.OctetString.call])

/-- rfc2876.py:42-45 -/
def _algorithmIdentifierMapUpdate : Py.Entries :=
  [(Rfc2876.id_fortezzaConfidentialityAlgorithm.value, Rfc2876.Skipjack_Parm.call.ty),
    (Rfc2876.id_kEAKeyEncryptionAlgorithm.value, Rfc5280.AlgorithmIdentifier.call.ty)]

/-- rfc2876.py:52-54 -/
def _smimeCapabilityMapUpdate : Py.Entries :=
  [(Rfc2876.id_kEAKeyEncryptionAlgorithm.value, Rfc5280.AlgorithmIdentifier.call.ty)]

/-- Modules of this package imported by rfc2876.py, in textual order. -/
def imports : List Py.Ident :=
  [(Py.mod 15 "rfc5280"), (Py.mod 20 "rfc5751")]

/-- Dictionary operations executed when rfc2876.py is imported, in program order. -/
def effects : List Py.Effect :=
  [.create (Py.map 33 "rfc2876._algorithmIdentifierMapUpdate") Rfc2876._algorithmIdentifierMapUpdate /- rfc2876.py:42-45 -/,
   .update (Py.map 3 "rfc5280.algorithmIdentifierMap") Rfc2876._algorithmIdentifierMapUpdate /- rfc2876.py:47 -/,
   .create (Py.map 34 "rfc2876._smimeCapabilityMapUpdate") Rfc2876._smimeCapabilityMapUpdate /- rfc2876.py:52-54 -/,
   .update (Py.map 14 "rfc5751.smimeCapabilityMap") Rfc2876._smimeCapabilityMapUpdate /- rfc2876.py:56 -/]

/-- ASN.1 types rfc2876.py binds at module level (final version of each name), plus nested classes. -/
def classes : List (String × Py.Obj) :=
  [("rfc2876.Skipjack_Parm", Rfc2876.Skipjack_Parm)]

/-- pyasn1 instances rfc2876.py binds at module level. -/
def objects : List (String × Py.Obj) :=
  [("rfc2876.id_fortezzaConfidentialityAlgorithm", Rfc2876.id_fortezzaConfidentialityAlgorithm),
   ("rfc2876.id_fortezzaWrap80", Rfc2876.id_fortezzaWrap80),
   ("rfc2876.id_kEAKeyEncryptionAlgorithm", Rfc2876.id_kEAKeyEncryptionAlgorithm),
   ("rfc2876.id_keyExchangeAlgorithm", Rfc2876.id_keyExchangeAlgorithm)]

/-- pyasn1 instances rfc2876.py fills in by item assignment. -/
def protos : List (String × Py.Proto) :=
  []

/-- Every place of rfc2876.py that instantiates a class of the package: where, the class as it is
at that point, and the class as it is when the import has finished. -/
def snapshots : List Py.Snapshot :=
  [⟨"rfc2876.py:43", Rfc2876.Skipjack_Parm, Rfc2876.Skipjack_Parm⟩,
   ⟨"rfc2876.py:44", Rfc5280.AlgorithmIdentifier, Rfc5280.AlgorithmIdentifier⟩,
   ⟨"rfc2876.py:53", Rfc5280.AlgorithmIdentifier, Rfc5280.AlgorithmIdentifier⟩]

/-- Functions rfc2876.py defines. -/
def builders : List (String × (List Py.OidArg → Py.Obj)) :=
  []

def asModule : Py.Module :=
  { id := (Py.mod 21 "rfc2876"), imports := imports, effects := effects, classes := classes, objects := objects, protos := protos, snapshots := snapshots, builders := builders }

end Rfc2876
end Verif
