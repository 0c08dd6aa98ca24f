import Verif.Py.Obj
import Verif.Gen.Rfc5280

/-! Transcription of /repo/pyasn1_modules/rfc8419.py (generated by tools/gen.py). -/

namespace Verif
namespace Rfc8419

/-- rfc8419.py:20-21 `class ShakeOutputLen(univ.Integer)` -/
def ShakeOutputLen : Py.Obj :=
  Py.univ.Integer

/-- rfc8419.py:24 -/
def id_Ed25519 : Py.Obj :=
  (Py.univ.ObjectIdentifier.call.callArcs [1, 3, 101, 112])

/-- rfc8419.py:26 -/
def sigAlg_Ed25519__0 : Py.Proto :=
  { obj := Rfc5280.AlgorithmIdentifier.call }

/-- rfc8419.py:27 `sigAlg_Ed25519['algorithm'] = ...` -/
def sigAlg_Ed25519 : Py.Proto :=
  Rfc8419.sigAlg_Ed25519__0.set "algorithm" (.obj Rfc8419.id_Ed25519)

/-- rfc8419.py:31 -/
def id_Ed448 : Py.Obj :=
  (Py.univ.ObjectIdentifier.call.callArcs [1, 3, 101, 113])

/-- rfc8419.py:33 -/
def sigAlg_Ed448__0 : Py.Proto :=
  { obj := Rfc5280.AlgorithmIdentifier.call }

/-- rfc8419.py:34 `sigAlg_Ed448['algorithm'] = ...` -/
def sigAlg_Ed448 : Py.Proto :=
  Rfc8419.sigAlg_Ed448__0.set "algorithm" (.obj Rfc8419.id_Ed448)

/-- rfc8419.py:38 -/
def hashAlgs : Py.Obj :=
  (Py.univ.ObjectIdentifier.call.callArcs [2, 16, 840, 1, 101, 3, 4, 2])

/-- rfc8419.py:40 -/
def id_sha512 : Py.Obj :=
  (Rfc8419.hashAlgs.addArcs [3])

/-- rfc8419.py:42 -/
def hashAlg_SHA_512__0 : Py.Proto :=
  { obj := Rfc5280.AlgorithmIdentifier.call }

/-- rfc8419.py:43 `hashAlg_SHA_512['algorithm'] = ...` -/
def hashAlg_SHA_512 : Py.Proto :=
  Rfc8419.hashAlg_SHA_512__0.set "algorithm" (.obj Rfc8419.id_sha512)

/-- rfc8419.py:47 -/
def id_shake256 : Py.Obj :=
  (Rfc8419.hashAlgs.addArcs [12])

/-- rfc8419.py:49 -/
def hashAlg_SHAKE256__0 : Py.Proto :=
  { obj := Rfc5280.AlgorithmIdentifier.call }

/-- rfc8419.py:50 `hashAlg_SHAKE256['algorithm'] = ...` -/
def hashAlg_SHAKE256 : Py.Proto :=
  Rfc8419.hashAlg_SHAKE256__0.set "algorithm" (.obj Rfc8419.id_shake256)

/-- rfc8419.py:54 -/
def id_shake256_len : Py.Obj :=
  (Rfc8419.hashAlgs.addArcs [18])

/-- rfc8419.py:56 -/
def hashAlg_SHAKE256_LEN__0 : Py.Proto :=
  { obj := Rfc5280.AlgorithmIdentifier.call }

/-- rfc8419.py:57 `hashAlg_SHAKE256_LEN['algorithm'] = ...` -/
def hashAlg_SHAKE256_LEN__1 : Py.Proto :=
  Rfc8419.hashAlg_SHAKE256_LEN__0.set "algorithm" (.obj Rfc8419.id_shake256_len)

/-- rfc8419.py:58 `hashAlg_SHAKE256_LEN['parameters'] = ...` -/
def hashAlg_SHAKE256_LEN : Py.Proto :=
  Rfc8419.hashAlg_SHAKE256_LEN__1.set "parameters" (.obj Rfc8419.ShakeOutputLen.call)

/-- rfc8419.py:64-66 -/
def _algorithmIdentifierMapUpdate : Py.Entries :=
  [(Rfc8419.id_shake256_len.value, Rfc8419.ShakeOutputLen.call.ty)]

/-- Modules of this package imported by rfc8419.py, in textual order. -/
def imports : List Py.Ident :=
  [(Py.mod 15 "rfc5280")]

/-- Dictionary operations executed when rfc8419.py is imported, in program order. -/
def effects : List Py.Effect :=
  [.create (Py.map 140 "rfc8419._algorithmIdentifierMapUpdate") Rfc8419._algorithmIdentifierMapUpdate /- rfc8419.py:64-66 -/,
   .update (Py.map 3 "rfc5280.algorithmIdentifierMap") Rfc8419._algorithmIdentifierMapUpdate /- rfc8419.py:68 -/]

/-- ASN.1 types rfc8419.py binds at module level (final version of each name), plus nested classes. -/
def classes : List (String × Py.Obj) :=
  [("rfc8419.ShakeOutputLen", Rfc8419.ShakeOutputLen)]

/-- pyasn1 instances rfc8419.py binds at module level. -/
def objects : List (String × Py.Obj) :=
  [("rfc8419.id_Ed25519", Rfc8419.id_Ed25519),
   ("rfc8419.id_Ed448", Rfc8419.id_Ed448),
   ("rfc8419.hashAlgs", Rfc8419.hashAlgs),
   ("rfc8419.id_sha512", Rfc8419.id_sha512),
   ("rfc8419.id_shake256", Rfc8419.id_shake256),
   ("rfc8419.id_shake256_len", Rfc8419.id_shake256_len)]

/-- pyasn1 instances rfc8419.py fills in by item assignment. -/
def protos : List (String × Py.Proto) :=
  [("rfc8419.sigAlg_Ed25519", Rfc8419.sigAlg_Ed25519),
   ("rfc8419.sigAlg_Ed448", Rfc8419.sigAlg_Ed448),
   ("rfc8419.hashAlg_SHA_512", Rfc8419.hashAlg_SHA_512),
   ("rfc8419.hashAlg_SHAKE256", Rfc8419.hashAlg_SHAKE256),
   ("rfc8419.hashAlg_SHAKE256_LEN", Rfc8419.hashAlg_SHAKE256_LEN)]

/-- Every place of rfc8419.py that instantiates a class of the package: where, the class as it is
at that point, and the class as it is when the import has finished. -/
def snapshots : List Py.Snapshot :=
  [⟨"rfc8419.py:26", Rfc5280.AlgorithmIdentifier, Rfc5280.AlgorithmIdentifier⟩,
   ⟨"rfc8419.py:33", Rfc5280.AlgorithmIdentifier, Rfc5280.AlgorithmIdentifier⟩,
   ⟨"rfc8419.py:42", Rfc5280.AlgorithmIdentifier, Rfc5280.AlgorithmIdentifier⟩,
   ⟨"rfc8419.py:49", Rfc5280.AlgorithmIdentifier, Rfc5280.AlgorithmIdentifier⟩,
   ⟨"rfc8419.py:56", Rfc5280.AlgorithmIdentifier, Rfc5280.AlgorithmIdentifier⟩,
   ⟨"rfc8419.py:58", Rfc8419.ShakeOutputLen, Rfc8419.ShakeOutputLen⟩,
   ⟨"rfc8419.py:65", Rfc8419.ShakeOutputLen, Rfc8419.ShakeOutputLen⟩]

/-- Functions rfc8419.py defines. -/
def builders : List (String × (List Py.OidArg → Py.Obj)) :=
  []

def asModule : Py.Module :=
  { id := (Py.mod 119 "rfc8419"), imports := imports, effects := effects, classes := classes, objects := objects, protos := protos, snapshots := snapshots, builders := builders }

end Rfc8419
end Verif
