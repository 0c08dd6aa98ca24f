import Verif.Py.Obj
import Verif.Gen.Rfc5280
import Verif.Gen.Rfc8692

/-! Transcription of /repo/pyasn1_modules/rfc8702.py (generated by tools/gen.py). -/

namespace Verif
namespace Rfc8702

/-- rfc8702.py:24 alias of `rfc5280.AlgorithmIdentifier` -/
def AlgorithmIdentifier : Py.Obj :=
  Rfc5280.AlgorithmIdentifier

/-- rfc8702.py:29 alias of `rfc8692.id_shake128` -/
def id_shake128 : Py.Obj :=
  Rfc8692.id_shake128

/-- rfc8702.py:31 alias of `rfc8692.mda_shake128` -/
def mda_shake128 : Py.Proto :=
  Rfc8692.mda_shake128

/-- rfc8702.py:33 alias of `rfc8692.id_shake256` -/
def id_shake256 : Py.Obj :=
  Rfc8692.id_shake256

/-- rfc8702.py:35 alias of `rfc8692.mda_shake256` -/
def mda_shake256 : Py.Proto :=
  Rfc8692.mda_shake256

/-- rfc8702.py:37 alias of `rfc8692.id_RSASSA_PSS_SHAKE128` -/
def id_RSASSA_PSS_SHAKE128 : Py.Obj :=
  Rfc8692.id_RSASSA_PSS_SHAKE128

/-- rfc8702.py:39 alias of `rfc8692.sa_rSASSA_PSS_SHAKE128` -/
def sa_rSASSA_PSS_SHAKE128 : Py.Proto :=
  Rfc8692.sa_rSASSA_PSS_SHAKE128

/-- rfc8702.py:41 alias of `rfc8692.pk_rsaSSA_PSS_SHAKE128` -/
def pk_rsaSSA_PSS_SHAKE128 : Py.Obj :=
  Rfc8692.pk_rsaSSA_PSS_SHAKE128

/-- rfc8702.py:43 alias of `rfc8692.id_RSASSA_PSS_SHAKE256` -/
def id_RSASSA_PSS_SHAKE256 : Py.Obj :=
  Rfc8692.id_RSASSA_PSS_SHAKE256

/-- rfc8702.py:45 alias of `rfc8692.sa_rSASSA_PSS_SHAKE256` -/
def sa_rSASSA_PSS_SHAKE256 : Py.Proto :=
  Rfc8692.sa_rSASSA_PSS_SHAKE256

/-- rfc8702.py:47 alias of `rfc8692.pk_rsaSSA_PSS_SHAKE256` -/
def pk_rsaSSA_PSS_SHAKE256 : Py.Obj :=
  Rfc8692.pk_rsaSSA_PSS_SHAKE256

/-- rfc8702.py:49 alias of `rfc8692.id_ecdsa_with_shake128` -/
def id_ecdsa_with_shake128 : Py.Obj :=
  Rfc8692.id_ecdsa_with_shake128

/-- rfc8702.py:51 alias of `rfc8692.sa_ecdsa_with_shake128` -/
def sa_ecdsa_with_shake128 : Py.Proto :=
  Rfc8692.sa_ecdsa_with_shake128

/-- rfc8702.py:53 alias of `rfc8692.id_ecdsa_with_shake256` -/
def id_ecdsa_with_shake256 : Py.Obj :=
  Rfc8692.id_ecdsa_with_shake256

/-- rfc8702.py:55 alias of `rfc8692.sa_ecdsa_with_shake256` -/
def sa_ecdsa_with_shake256 : Py.Proto :=
  Rfc8692.sa_ecdsa_with_shake256

/-- rfc8702.py:57 alias of `rfc8692.pk_ec` -/
def pk_ec : Py.Obj :=
  Rfc8692.pk_ec

/-- rfc8702.py:62 -/
def id_KMACWithSHAKE128 : Py.Obj :=
  (Py.univ.ObjectIdentifier.call.callArcs [2, 16, 840, 1, 101, 3, 4, 2, 19])

/-- rfc8702.py:65-71 `class KMACwithSHAKE128_params(univ.Sequence)` -/
def KMACwithSHAKE128_params : Py.Obj :=
  Py.univ.Sequence.setComponentType (Py.NamedTypes [
    Py.DefaultedNamedType "kMACOutputLength" (Py.univ.Integer.call.callInt 256),
    Py.DefaultedNamedType "customizationString" (Py.univ.OctetString.call.callStr "")])

/-- rfc8702.py:74 -/
def maca_KMACwithSHAKE128__0 : Py.Proto :=
  { obj := Rfc8702.AlgorithmIdentifier.call }

/-- rfc8702.py:75 `maca_KMACwithSHAKE128['algorithm'] = ...` -/
def maca_KMACwithSHAKE128__1 : Py.Proto :=
  Rfc8702.maca_KMACwithSHAKE128__0.set "algorithm" (.obj Rfc8702.id_KMACWithSHAKE128)

/-- rfc8702.py:76 `maca_KMACwithSHAKE128['parameters'] = ...` -/
def maca_KMACwithSHAKE128 : Py.Proto :=
  Rfc8702.maca_KMACwithSHAKE128__1.set "parameters" (.obj Rfc8702.KMACwithSHAKE128_params.call)

/-- rfc8702.py:81 -/
def id_KMACWithSHAKE256 : Py.Obj :=
  (Py.univ.ObjectIdentifier.call.callArcs [2, 16, 840, 1, 101, 3, 4, 2, 20])

/-- rfc8702.py:84-90 `class KMACwithSHAKE256_params(univ.Sequence)` -/
def KMACwithSHAKE256_params : Py.Obj :=
  Py.univ.Sequence.setComponentType (Py.NamedTypes [
    Py.DefaultedNamedType "kMACOutputLength" (Py.univ.Integer.call.callInt 512),
    Py.DefaultedNamedType "customizationString" (Py.univ.OctetString.call.callStr "")])

/-- rfc8702.py:93 -/
def maca_KMACwithSHAKE256__0 : Py.Proto :=
  { obj := Rfc8702.AlgorithmIdentifier.call }

/-- rfc8702.py:94 `maca_KMACwithSHAKE256['algorithm'] = ...` -/
def maca_KMACwithSHAKE256__1 : Py.Proto :=
  Rfc8702.maca_KMACwithSHAKE256__0.set "algorithm" (.obj Rfc8702.id_KMACWithSHAKE256)

/-- rfc8702.py:95 `maca_KMACwithSHAKE256['parameters'] = ...` -/
def maca_KMACwithSHAKE256 : Py.Proto :=
  Rfc8702.maca_KMACwithSHAKE256__1.set "parameters" (.obj Rfc8702.KMACwithSHAKE256_params.call)

/-- rfc8702.py:100-103 -/
def _algorithmIdentifierMapUpdate : Py.Entries :=
  [(Rfc8702.id_KMACWithSHAKE128.value, Rfc8702.KMACwithSHAKE128_params.call.ty),
    (Rfc8702.id_KMACWithSHAKE256.value, Rfc8702.KMACwithSHAKE256_params.call.ty)]

/-- Modules of this package imported by rfc8702.py, in textual order. -/
def imports : List Py.Ident :=
  [(Py.mod 15 "rfc5280"), (Py.mod 125 "rfc8692")]

/-- Dictionary operations executed when rfc8702.py is imported, in program order. -/
def effects : List Py.Effect :=
  [.create (Py.map 146 "rfc8702._algorithmIdentifierMapUpdate") Rfc8702._algorithmIdentifierMapUpdate /- rfc8702.py:100-103 -/,
   .update (Py.map 3 "rfc5280.algorithmIdentifierMap") Rfc8702._algorithmIdentifierMapUpdate /- rfc8702.py:105 -/]

/-- ASN.1 types rfc8702.py binds at module level (final version of each name), plus nested classes. -/
def classes : List (String × Py.Obj) :=
  [("rfc8702.AlgorithmIdentifier", Rfc8702.AlgorithmIdentifier),
   ("rfc8702.KMACwithSHAKE128_params", Rfc8702.KMACwithSHAKE128_params),
   ("rfc8702.KMACwithSHAKE256_params", Rfc8702.KMACwithSHAKE256_params)]

/-- pyasn1 instances rfc8702.py binds at module level. -/
def objects : List (String × Py.Obj) :=
  [("rfc8702.id_shake128", Rfc8702.id_shake128),
   ("rfc8702.id_shake256", Rfc8702.id_shake256),
   ("rfc8702.id_RSASSA_PSS_SHAKE128", Rfc8702.id_RSASSA_PSS_SHAKE128),
   ("rfc8702.pk_rsaSSA_PSS_SHAKE128", Rfc8702.pk_rsaSSA_PSS_SHAKE128),
   ("rfc8702.id_RSASSA_PSS_SHAKE256", Rfc8702.id_RSASSA_PSS_SHAKE256),
   ("rfc8702.pk_rsaSSA_PSS_SHAKE256", Rfc8702.pk_rsaSSA_PSS_SHAKE256),
   ("rfc8702.id_ecdsa_with_shake128", Rfc8702.id_ecdsa_with_shake128),
   ("rfc8702.id_ecdsa_with_shake256", Rfc8702.id_ecdsa_with_shake256),
   ("rfc8702.pk_ec", Rfc8702.pk_ec),
   ("rfc8702.id_KMACWithSHAKE128", Rfc8702.id_KMACWithSHAKE128),
   ("rfc8702.id_KMACWithSHAKE256", Rfc8702.id_KMACWithSHAKE256)]

/-- pyasn1 instances rfc8702.py fills in by item assignment. -/
def protos : List (String × Py.Proto) :=
  [("rfc8702.mda_shake128", Rfc8702.mda_shake128),
   ("rfc8702.mda_shake256", Rfc8702.mda_shake256),
   ("rfc8702.sa_rSASSA_PSS_SHAKE128", Rfc8702.sa_rSASSA_PSS_SHAKE128),
   ("rfc8702.sa_rSASSA_PSS_SHAKE256", Rfc8702.sa_rSASSA_PSS_SHAKE256),
   ("rfc8702.sa_ecdsa_with_shake128", Rfc8702.sa_ecdsa_with_shake128),
   ("rfc8702.sa_ecdsa_with_shake256", Rfc8702.sa_ecdsa_with_shake256),
   ("rfc8702.maca_KMACwithSHAKE128", Rfc8702.maca_KMACwithSHAKE128),
   ("rfc8702.maca_KMACwithSHAKE256", Rfc8702.maca_KMACwithSHAKE256)]

/-- Every place of rfc8702.py that instantiates a class of the package: where, the class as it is
at that point, and the class as it is when the import has finished. -/
def snapshots : List Py.Snapshot :=
  [⟨"rfc8702.py:74", Rfc8702.AlgorithmIdentifier, Rfc8702.AlgorithmIdentifier⟩,
   ⟨"rfc8702.py:76", Rfc8702.KMACwithSHAKE128_params, Rfc8702.KMACwithSHAKE128_params⟩,
   ⟨"rfc8702.py:93", Rfc8702.AlgorithmIdentifier, Rfc8702.AlgorithmIdentifier⟩,
   ⟨"rfc8702.py:95", Rfc8702.KMACwithSHAKE256_params, Rfc8702.KMACwithSHAKE256_params⟩,
   ⟨"rfc8702.py:101", Rfc8702.KMACwithSHAKE128_params, Rfc8702.KMACwithSHAKE128_params⟩,
   ⟨"rfc8702.py:102", Rfc8702.KMACwithSHAKE256_params, Rfc8702.KMACwithSHAKE256_params⟩]

/-- Functions rfc8702.py defines. -/
def builders : List (String × (List Py.OidArg → Py.Obj)) :=
  []

def asModule : Py.Module :=
  { id := (Py.mod 127 "rfc8702"), imports := imports, effects := effects, classes := classes, objects := objects, protos := protos, snapshots := snapshots, builders := builders }

end Rfc8702
end Verif
