import Verif.Py.Obj

/-! Transcription of /repo/pyasn1_modules/rfc7229.py (generated by tools/gen.py). -/

namespace Verif
namespace Rfc7229

/-- rfc7229.py:18 -/
def id_pkix : Py.Obj :=
  (Py.univ.ObjectIdentifier.call.callArcs [1, 3, 6, 1, 5, 5, 7])

/-- rfc7229.py:20 -/
def id_TEST : Py.Obj :=
  (Rfc7229.id_pkix.addArcs [13])

/-- rfc7229.py:22 -/
def id_TEST_certPolicyOne : Py.Obj :=
  (Rfc7229.id_TEST.addArcs [1])

/-- rfc7229.py:23 -/
def id_TEST_certPolicyTwo : Py.Obj :=
  (Rfc7229.id_TEST.addArcs [2])

/-- rfc7229.py:24 -/
def id_TEST_certPolicyThree : Py.Obj :=
  (Rfc7229.id_TEST.addArcs [3])

/-- rfc7229.py:25 -/
def id_TEST_certPolicyFour : Py.Obj :=
  (Rfc7229.id_TEST.addArcs [4])

/-- rfc7229.py:26 -/
def id_TEST_certPolicyFive : Py.Obj :=
  (Rfc7229.id_TEST.addArcs [5])

/-- rfc7229.py:27 -/
def id_TEST_certPolicySix : Py.Obj :=
  (Rfc7229.id_TEST.addArcs [6])

/-- rfc7229.py:28 -/
def id_TEST_certPolicySeven : Py.Obj :=
  (Rfc7229.id_TEST.addArcs [7])

/-- rfc7229.py:29 -/
def id_TEST_certPolicyEight : Py.Obj :=
  (Rfc7229.id_TEST.addArcs [8])

/-- Modules of this package imported by rfc7229.py, in textual order. -/
def imports : List Py.Ident :=
  []

/-- Dictionary operations executed when rfc7229.py is imported, in program order. -/
def effects : List Py.Effect :=
  []

/-- ASN.1 types rfc7229.py binds at module level (final version of each name), plus nested classes. -/
def classes : List (String × Py.Obj) :=
  []

/-- pyasn1 instances rfc7229.py binds at module level. -/
def objects : List (String × Py.Obj) :=
  [("rfc7229.id_pkix", Rfc7229.id_pkix),
   ("rfc7229.id_TEST", Rfc7229.id_TEST),
   ("rfc7229.id_TEST_certPolicyOne", Rfc7229.id_TEST_certPolicyOne),
   ("rfc7229.id_TEST_certPolicyTwo", Rfc7229.id_TEST_certPolicyTwo),
   ("rfc7229.id_TEST_certPolicyThree", Rfc7229.id_TEST_certPolicyThree),
   ("rfc7229.id_TEST_certPolicyFour", Rfc7229.id_TEST_certPolicyFour),
   ("rfc7229.id_TEST_certPolicyFive", Rfc7229.id_TEST_certPolicyFive),
   ("rfc7229.id_TEST_certPolicySix", Rfc7229.id_TEST_certPolicySix),
   ("rfc7229.id_TEST_certPolicySeven", Rfc7229.id_TEST_certPolicySeven),
   ("rfc7229.id_TEST_certPolicyEight", Rfc7229.id_TEST_certPolicyEight)]

/-- pyasn1 instances rfc7229.py fills in by item assignment. -/
def protos : List (String × Py.Proto) :=
  []

/-- Every place of rfc7229.py that instantiates a class of the package: where, the class as it is
at that point, and the class as it is when the import has finished. -/
def snapshots : List Py.Snapshot :=
  []

/-- Functions rfc7229.py defines. -/
def builders : List (String × (List Py.OidArg → Py.Obj)) :=
  []

def asModule : Py.Module :=
  { id := (Py.mod 101 "rfc7229"), imports := imports, effects := effects, classes := classes, objects := objects, protos := protos, snapshots := snapshots, builders := builders }

end Rfc7229
end Verif
