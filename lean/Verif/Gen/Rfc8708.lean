import Verif.Py.Obj
import Verif.Gen.Rfc5280

/-! Transcription of /repo/pyasn1_modules/rfc8708.py (generated by tools/gen.py). -/

namespace Verif
namespace Rfc8708

/-- rfc8708.py:21 -/
def id_alg_hss_lms_hashsig : Py.Obj :=
  (Py.univ.ObjectIdentifier.call.callArcs [1, 2, 840, 113549, 1, 9, 16, 3, 17])

/-- rfc8708.py:23 alias of `id_alg_hss_lms_hashsig` -/
def id_alg_mts_hashsig : Py.Obj :=
  Rfc8708.id_alg_hss_lms_hashsig

/-- rfc8708.py:28 -/
def sa_HSS_LMS_HashSig__0 : Py.Proto :=
  { obj := Rfc5280.AlgorithmIdentifier.call }

/-- rfc8708.py:29 `sa_HSS_LMS_HashSig['algorithm'] = ...` -/
def sa_HSS_LMS_HashSig : Py.Proto :=
  Rfc8708.sa_HSS_LMS_HashSig__0.set "algorithm" (.obj Rfc8708.id_alg_hss_lms_hashsig)

/-- rfc8708.py:35-36 `class HSS_LMS_HashSig_PublicKey(univ.OctetString)` -/
def HSS_LMS_HashSig_PublicKey : Py.Obj :=
  Py.univ.OctetString

/-- rfc8708.py:39 -/
def pk_HSS_LMS_HashSig__0 : Py.Proto :=
  { obj := Rfc5280.SubjectPublicKeyInfo.call }

/-- rfc8708.py:40 `pk_HSS_LMS_HashSig['algorithm'] = ...` -/
def pk_HSS_LMS_HashSig : Py.Proto :=
  Rfc8708.pk_HSS_LMS_HashSig__0.set "algorithm" (.obj Rfc8708.sa_HSS_LMS_HashSig.toObj)

/-- Modules of this package imported by rfc8708.py, in textual order. -/
def imports : List Py.Ident :=
  [(Py.mod 15 "rfc5280")]

/-- Dictionary operations executed when rfc8708.py is imported, in program order. -/
def effects : List Py.Effect :=
  []

/-- ASN.1 types rfc8708.py binds at module level (final version of each name), plus nested classes. -/
def classes : List (String × Py.Obj) :=
  [("rfc8708.HSS_LMS_HashSig_PublicKey", Rfc8708.HSS_LMS_HashSig_PublicKey)]

/-- pyasn1 instances rfc8708.py binds at module level. -/
def objects : List (String × Py.Obj) :=
  [("rfc8708.id_alg_hss_lms_hashsig", Rfc8708.id_alg_hss_lms_hashsig),
   ("rfc8708.id_alg_mts_hashsig", Rfc8708.id_alg_mts_hashsig)]

/-- pyasn1 instances rfc8708.py fills in by item assignment. -/
def protos : List (String × Py.Proto) :=
  [("rfc8708.sa_HSS_LMS_HashSig", Rfc8708.sa_HSS_LMS_HashSig),
   ("rfc8708.pk_HSS_LMS_HashSig", Rfc8708.pk_HSS_LMS_HashSig)]

/-- Every place of rfc8708.py that instantiates a class of the package: where, the class as it is
at that point, and the class as it is when the import has finished. -/
def snapshots : List Py.Snapshot :=
  [⟨"rfc8708.py:28", Rfc5280.AlgorithmIdentifier, Rfc5280.AlgorithmIdentifier⟩,
   ⟨"rfc8708.py:39", Rfc5280.SubjectPublicKeyInfo, Rfc5280.SubjectPublicKeyInfo⟩]

/-- Functions rfc8708.py defines. -/
def builders : List (String × (List Py.OidArg → Py.Obj)) :=
  []

def asModule : Py.Module :=
  { id := (Py.mod 128 "rfc8708"), imports := imports, effects := effects, classes := classes, objects := objects, protos := protos, snapshots := snapshots, builders := builders }

end Rfc8708
end Verif
