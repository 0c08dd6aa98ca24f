import Verif.Py.Obj
import Verif.Gen.Rfc5280

/-! Transcription of /repo/pyasn1_modules/rfc6210.py (generated by tools/gen.py). -/

namespace Verif
namespace Rfc6210

/-- rfc6210.py:21 -/
def id_alg_MD5_XOR_EXPERIMENT : Py.Obj :=
  (Py.univ.ObjectIdentifier.call.callArcs [1, 2, 840, 113549, 1, 9, 16, 3, 13])

/-- rfc6210.py:24-25 `class MD5_XOR_EXPERIMENT(univ.OctetString)` -/
def MD5_XOR_EXPERIMENT__0 : Py.Obj :=
  Py.univ.OctetString

/-- rfc6210.py:27 `MD5_XOR_EXPERIMENT.subtypeSpec = ...` -/
def MD5_XOR_EXPERIMENT : Py.Obj :=
  Rfc6210.MD5_XOR_EXPERIMENT__0.setSubtypeSpec (Py.ValueSizeConstraint (.fin 64) (.fin 64))

/-- rfc6210.py:30 -/
def mda_xor_md5_EXPERIMENT__0 : Py.Proto :=
  { obj := Rfc5280.AlgorithmIdentifier.call }

/-- rfc6210.py:31 `mda_xor_md5_EXPERIMENT['algorithm'] = ...` -/
def mda_xor_md5_EXPERIMENT__1 : Py.Proto :=
  Rfc6210.mda_xor_md5_EXPERIMENT__0.set "algorithm" (.obj Rfc6210.id_alg_MD5_XOR_EXPERIMENT)

/-- rfc6210.py:32 `mda_xor_md5_EXPERIMENT['parameters'] = ...` -/
def mda_xor_md5_EXPERIMENT : Py.Proto :=
  Rfc6210.mda_xor_md5_EXPERIMENT__1.set "parameters" (.obj Rfc6210.MD5_XOR_EXPERIMENT.call)

/-- rfc6210.py:38-40 -/
def _algorithmIdentifierMapUpdate : Py.Entries :=
  [(Rfc6210.id_alg_MD5_XOR_EXPERIMENT.value, Rfc6210.MD5_XOR_EXPERIMENT.call.ty)]

/-- Modules of this package imported by rfc6210.py, in textual order. -/
def imports : List Py.Ident :=
  [(Py.mod 15 "rfc5280")]

/-- Dictionary operations executed when rfc6210.py is imported, in program order. -/
def effects : List Py.Effect :=
  [.create (Py.map 108 "rfc6210._algorithmIdentifierMapUpdate") Rfc6210._algorithmIdentifierMapUpdate /- rfc6210.py:38-40 -/,
   .update (Py.map 3 "rfc5280.algorithmIdentifierMap") Rfc6210._algorithmIdentifierMapUpdate /- rfc6210.py:42 -/]

/-- ASN.1 types rfc6210.py binds at module level (final version of each name), plus nested classes. -/
def classes : List (String × Py.Obj) :=
  [("rfc6210.MD5_XOR_EXPERIMENT", Rfc6210.MD5_XOR_EXPERIMENT)]

/-- pyasn1 instances rfc6210.py binds at module level. -/
def objects : List (String × Py.Obj) :=
  [("rfc6210.id_alg_MD5_XOR_EXPERIMENT", Rfc6210.id_alg_MD5_XOR_EXPERIMENT)]

/-- pyasn1 instances rfc6210.py fills in by item assignment. -/
def protos : List (String × Py.Proto) :=
  [("rfc6210.mda_xor_md5_EXPERIMENT", Rfc6210.mda_xor_md5_EXPERIMENT)]

/-- Every place of rfc6210.py that instantiates a class of the package: where, the class as it is
at that point, and the class as it is when the import has finished. -/
def snapshots : List Py.Snapshot :=
  [⟨"rfc6210.py:30", Rfc5280.AlgorithmIdentifier, Rfc5280.AlgorithmIdentifier⟩,
   ⟨"rfc6210.py:32", Rfc6210.MD5_XOR_EXPERIMENT, Rfc6210.MD5_XOR_EXPERIMENT⟩,
   ⟨"rfc6210.py:39", Rfc6210.MD5_XOR_EXPERIMENT, Rfc6210.MD5_XOR_EXPERIMENT⟩]

/-- Functions rfc6210.py defines. -/
def builders : List (String × (List Py.OidArg → Py.Obj)) :=
  []

def asModule : Py.Module :=
  { id := (Py.mod 91 "rfc6210"), imports := imports, effects := effects, classes := classes, objects := objects, protos := protos, snapshots := snapshots, builders := builders }

end Rfc6210
end Verif
