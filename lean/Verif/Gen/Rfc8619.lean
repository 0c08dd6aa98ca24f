import Verif.Py.Obj
import Verif.Gen.Rfc5280

/-! Transcription of /repo/pyasn1_modules/rfc8619.py (generated by tools/gen.py). -/

namespace Verif
namespace Rfc8619

/-- rfc8619.py:22 -/
def id_alg_hkdf_with_sha256 : Py.Obj :=
  (Py.univ.ObjectIdentifier.call.callArcs [1, 2, 840, 113549, 1, 9, 16, 3, 28])

/-- rfc8619.py:25 -/
def id_alg_hkdf_with_sha384 : Py.Obj :=
  (Py.univ.ObjectIdentifier.call.callArcs [1, 2, 840, 113549, 1, 9, 16, 3, 29])

/-- rfc8619.py:28 -/
def id_alg_hkdf_with_sha512 : Py.Obj :=
  (Py.univ.ObjectIdentifier.call.callArcs [1, 2, 840, 113549, 1, 9, 16, 3, 30])

/-- rfc8619.py:33 -/
def kda_hkdf_with_sha256__0 : Py.Proto :=
  { obj := Rfc5280.AlgorithmIdentifier.call }

/-- rfc8619.py:34 `kda_hkdf_with_sha256['algorithm'] = ...` -/
def kda_hkdf_with_sha256 : Py.Proto :=
  Rfc8619.kda_hkdf_with_sha256__0.set "algorithm" (.obj Rfc8619.id_alg_hkdf_with_sha256)

/-- rfc8619.py:38 -/
def kda_hkdf_with_sha384__0 : Py.Proto :=
  { obj := Rfc5280.AlgorithmIdentifier.call }

/-- rfc8619.py:39 `kda_hkdf_with_sha384['algorithm'] = ...` -/
def kda_hkdf_with_sha384 : Py.Proto :=
  Rfc8619.kda_hkdf_with_sha384__0.set "algorithm" (.obj Rfc8619.id_alg_hkdf_with_sha384)

/-- rfc8619.py:43 -/
def kda_hkdf_with_sha512__0 : Py.Proto :=
  { obj := Rfc5280.AlgorithmIdentifier.call }

/-- rfc8619.py:44 `kda_hkdf_with_sha512['algorithm'] = ...` -/
def kda_hkdf_with_sha512 : Py.Proto :=
  Rfc8619.kda_hkdf_with_sha512__0.set "algorithm" (.obj Rfc8619.id_alg_hkdf_with_sha512)

/-- Modules of this package imported by rfc8619.py, in textual order. -/
def imports : List Py.Ident :=
  [(Py.mod 15 "rfc5280")]

/-- Dictionary operations executed when rfc8619.py is imported, in program order. -/
def effects : List Py.Effect :=
  []

/-- ASN.1 types rfc8619.py binds at module level (final version of each name), plus nested classes. -/
def classes : List (String × Py.Obj) :=
  []

/-- pyasn1 instances rfc8619.py binds at module level. -/
def objects : List (String × Py.Obj) :=
  [("rfc8619.id_alg_hkdf_with_sha256", Rfc8619.id_alg_hkdf_with_sha256),
   ("rfc8619.id_alg_hkdf_with_sha384", Rfc8619.id_alg_hkdf_with_sha384),
   ("rfc8619.id_alg_hkdf_with_sha512", Rfc8619.id_alg_hkdf_with_sha512)]

/-- pyasn1 instances rfc8619.py fills in by item assignment. -/
def protos : List (String × Py.Proto) :=
  [("rfc8619.kda_hkdf_with_sha256", Rfc8619.kda_hkdf_with_sha256),
   ("rfc8619.kda_hkdf_with_sha384", Rfc8619.kda_hkdf_with_sha384),
   ("rfc8619.kda_hkdf_with_sha512", Rfc8619.kda_hkdf_with_sha512)]

/-- Every place of rfc8619.py that instantiates a class of the package: where, the class as it is
at that point, and the class as it is when the import has finished. -/
def snapshots : List Py.Snapshot :=
  [⟨"rfc8619.py:33", Rfc5280.AlgorithmIdentifier, Rfc5280.AlgorithmIdentifier⟩,
   ⟨"rfc8619.py:38", Rfc5280.AlgorithmIdentifier, Rfc5280.AlgorithmIdentifier⟩,
   ⟨"rfc8619.py:43", Rfc5280.AlgorithmIdentifier, Rfc5280.AlgorithmIdentifier⟩]

/-- Functions rfc8619.py defines. -/
def builders : List (String × (List Py.OidArg → Py.Obj)) :=
  []

def asModule : Py.Module :=
  { id := (Py.mod 123 "rfc8619"), imports := imports, effects := effects, classes := classes, objects := objects, protos := protos, snapshots := snapshots, builders := builders }

end Rfc8619
end Verif
