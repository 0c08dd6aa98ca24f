import Verif.Py.Obj
import Verif.Gen.Rfc4055
import Verif.Gen.Rfc5280
import Verif.Gen.Rfc5480

/-! Transcription of /repo/pyasn1_modules/rfc8692.py (generated by tools/gen.py). -/

namespace Verif
namespace Rfc8692

/-- rfc8692.py:24 -/
def id_shake128 : Py.Obj :=
  (Py.univ.ObjectIdentifier.call.callArcs [2, 16, 840, 1, 101, 3, 4, 2, 11])

/-- rfc8692.py:26 -/
def mda_shake128__0 : Py.Proto :=
  { obj := Rfc5280.AlgorithmIdentifier.call }

/-- rfc8692.py:27 `mda_shake128['algorithm'] = ...` -/
def mda_shake128 : Py.Proto :=
  Rfc8692.mda_shake128__0.set "algorithm" (.obj Rfc8692.id_shake128)

/-- rfc8692.py:33 -/
def id_shake256 : Py.Obj :=
  (Py.univ.ObjectIdentifier.call.callArcs [2, 16, 840, 1, 101, 3, 4, 2, 12])

/-- rfc8692.py:35 -/
def mda_shake256__0 : Py.Proto :=
  { obj := Rfc5280.AlgorithmIdentifier.call }

/-- rfc8692.py:36 `mda_shake256['algorithm'] = ...` -/
def mda_shake256 : Py.Proto :=
  Rfc8692.mda_shake256__0.set "algorithm" (.obj Rfc8692.id_shake256)

/-- rfc8692.py:42 -/
def id_RSASSA_PSS_SHAKE128 : Py.Obj :=
  (Py.univ.ObjectIdentifier.call.callArcs [1, 3, 6, 1, 5, 5, 7, 6, 30])

/-- rfc8692.py:44 -/
def sa_rSASSA_PSS_SHAKE128__0 : Py.Proto :=
  { obj := Rfc5280.AlgorithmIdentifier.call }

/-- rfc8692.py:45 `sa_rSASSA_PSS_SHAKE128['algorithm'] = ...` -/
def sa_rSASSA_PSS_SHAKE128 : Py.Proto :=
  Rfc8692.sa_rSASSA_PSS_SHAKE128__0.set "algorithm" (.obj Rfc8692.id_RSASSA_PSS_SHAKE128)

/-- rfc8692.py:48 -/
def pk_rsaSSA_PSS_SHAKE128 : Py.Obj :=
  Rfc4055.RSAPublicKey.call

/-- rfc8692.py:53 -/
def id_RSASSA_PSS_SHAKE256 : Py.Obj :=
  (Py.univ.ObjectIdentifier.call.callArcs [1, 3, 6, 1, 5, 5, 7, 6, 31])

/-- rfc8692.py:55 -/
def sa_rSASSA_PSS_SHAKE256__0 : Py.Proto :=
  { obj := Rfc5280.AlgorithmIdentifier.call }

/-- rfc8692.py:56 `sa_rSASSA_PSS_SHAKE256['algorithm'] = ...` -/
def sa_rSASSA_PSS_SHAKE256 : Py.Proto :=
  Rfc8692.sa_rSASSA_PSS_SHAKE256__0.set "algorithm" (.obj Rfc8692.id_RSASSA_PSS_SHAKE256)

/-- rfc8692.py:59 -/
def pk_rsaSSA_PSS_SHAKE256 : Py.Obj :=
  Rfc4055.RSAPublicKey.call

/-- rfc8692.py:64 -/
def id_ecdsa_with_shake128 : Py.Obj :=
  (Py.univ.ObjectIdentifier.call.callArcs [1, 3, 6, 1, 5, 5, 7, 6, 32])

/-- rfc8692.py:66 -/
def sa_ecdsa_with_shake128__0 : Py.Proto :=
  { obj := Rfc5280.AlgorithmIdentifier.call }

/-- rfc8692.py:67 `sa_ecdsa_with_shake128['algorithm'] = ...` -/
def sa_ecdsa_with_shake128 : Py.Proto :=
  Rfc8692.sa_ecdsa_with_shake128__0.set "algorithm" (.obj Rfc8692.id_ecdsa_with_shake128)

/-- rfc8692.py:70 -/
def pk_ec : Py.Obj :=
  Rfc5480.ECPoint.call

/-- rfc8692.py:75 -/
def id_ecdsa_with_shake256 : Py.Obj :=
  (Py.univ.ObjectIdentifier.call.callArcs [1, 3, 6, 1, 5, 5, 7, 6, 33])

/-- rfc8692.py:77 -/
def sa_ecdsa_with_shake256__0 : Py.Proto :=
  { obj := Rfc5280.AlgorithmIdentifier.call }

/-- rfc8692.py:78 `sa_ecdsa_with_shake256['algorithm'] = ...` -/
def sa_ecdsa_with_shake256 : Py.Proto :=
  Rfc8692.sa_ecdsa_with_shake256__0.set "algorithm" (.obj Rfc8692.id_ecdsa_with_shake256)

/-- Modules of this package imported by rfc8692.py, in textual order. -/
def imports : List Py.Ident :=
  [(Py.mod 42 "rfc4055"), (Py.mod 15 "rfc5280"), (Py.mod 34 "rfc5480")]

/-- Dictionary operations executed when rfc8692.py is imported, in program order. -/
def effects : List Py.Effect :=
  []

/-- ASN.1 types rfc8692.py binds at module level (final version of each name), plus nested classes. -/
def classes : List (String × Py.Obj) :=
  []

/-- pyasn1 instances rfc8692.py binds at module level. -/
def objects : List (String × Py.Obj) :=
  [("rfc8692.id_shake128", Rfc8692.id_shake128),
   ("rfc8692.id_shake256", Rfc8692.id_shake256),
   ("rfc8692.id_RSASSA_PSS_SHAKE128", Rfc8692.id_RSASSA_PSS_SHAKE128),
   ("rfc8692.pk_rsaSSA_PSS_SHAKE128", Rfc8692.pk_rsaSSA_PSS_SHAKE128),
   ("rfc8692.id_RSASSA_PSS_SHAKE256", Rfc8692.id_RSASSA_PSS_SHAKE256),
   ("rfc8692.pk_rsaSSA_PSS_SHAKE256", Rfc8692.pk_rsaSSA_PSS_SHAKE256),
   ("rfc8692.id_ecdsa_with_shake128", Rfc8692.id_ecdsa_with_shake128),
   ("rfc8692.pk_ec", Rfc8692.pk_ec),
   ("rfc8692.id_ecdsa_with_shake256", Rfc8692.id_ecdsa_with_shake256)]

/-- pyasn1 instances rfc8692.py fills in by item assignment. -/
def protos : List (String × Py.Proto) :=
  [("rfc8692.mda_shake128", Rfc8692.mda_shake128),
   ("rfc8692.mda_shake256", Rfc8692.mda_shake256),
   ("rfc8692.sa_rSASSA_PSS_SHAKE128", Rfc8692.sa_rSASSA_PSS_SHAKE128),
   ("rfc8692.sa_rSASSA_PSS_SHAKE256", Rfc8692.sa_rSASSA_PSS_SHAKE256),
   ("rfc8692.sa_ecdsa_with_shake128", Rfc8692.sa_ecdsa_with_shake128),
   ("rfc8692.sa_ecdsa_with_shake256", Rfc8692.sa_ecdsa_with_shake256)]

/-- Every place of rfc8692.py that instantiates a class of the package: where, the class as it is
at that point, and the class as it is when the import has finished. -/
def snapshots : List Py.Snapshot :=
  [⟨"rfc8692.py:26", Rfc5280.AlgorithmIdentifier, Rfc5280.AlgorithmIdentifier⟩,
   ⟨"rfc8692.py:35", Rfc5280.AlgorithmIdentifier, Rfc5280.AlgorithmIdentifier⟩,
   ⟨"rfc8692.py:44", Rfc5280.AlgorithmIdentifier, Rfc5280.AlgorithmIdentifier⟩,
   ⟨"rfc8692.py:48", Rfc4055.RSAPublicKey, Rfc4055.RSAPublicKey⟩,
   ⟨"rfc8692.py:55", Rfc5280.AlgorithmIdentifier, Rfc5280.AlgorithmIdentifier⟩,
   ⟨"rfc8692.py:59", Rfc4055.RSAPublicKey, Rfc4055.RSAPublicKey⟩,
   ⟨"rfc8692.py:66", Rfc5280.AlgorithmIdentifier, Rfc5280.AlgorithmIdentifier⟩,
   ⟨"rfc8692.py:70", Rfc5480.ECPoint, Rfc5480.ECPoint⟩,
   ⟨"rfc8692.py:77", Rfc5280.AlgorithmIdentifier, Rfc5280.AlgorithmIdentifier⟩]

/-- Functions rfc8692.py defines. -/
def builders : List (String × (List Py.OidArg → Py.Obj)) :=
  []

def asModule : Py.Module :=
  { id := (Py.mod 125 "rfc8692"), imports := imports, effects := effects, classes := classes, objects := objects, protos := protos, snapshots := snapshots, builders := builders }

end Rfc8692
end Verif
