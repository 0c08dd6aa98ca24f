import Verif.Py.Obj

/-! Transcription of /repo/pyasn1_modules/rfc5639.py (generated by tools/gen.py). -/

namespace Verif
namespace Rfc5639

/-- rfc5639.py:17 -/
def ecStdCurvesAndGeneration : Py.Obj :=
  (Py.univ.ObjectIdentifier.call.callArcs [1, 3, 36, 3, 3, 2, 8])

/-- rfc5639.py:19 -/
def ellipticCurve : Py.Obj :=
  (Rfc5639.ecStdCurvesAndGeneration.addArcs [1])

/-- rfc5639.py:21 -/
def versionOne : Py.Obj :=
  (Rfc5639.ellipticCurve.addArcs [1])

/-- rfc5639.py:23 -/
def brainpoolP160r1 : Py.Obj :=
  (Rfc5639.versionOne.addArcs [1])

/-- rfc5639.py:25 -/
def brainpoolP160t1 : Py.Obj :=
  (Rfc5639.versionOne.addArcs [2])

/-- rfc5639.py:27 -/
def brainpoolP192r1 : Py.Obj :=
  (Rfc5639.versionOne.addArcs [3])

/-- rfc5639.py:29 -/
def brainpoolP192t1 : Py.Obj :=
  (Rfc5639.versionOne.addArcs [4])

/-- rfc5639.py:31 -/
def brainpoolP224r1 : Py.Obj :=
  (Rfc5639.versionOne.addArcs [5])

/-- rfc5639.py:33 -/
def brainpoolP224t1 : Py.Obj :=
  (Rfc5639.versionOne.addArcs [6])

/-- rfc5639.py:35 -/
def brainpoolP256r1 : Py.Obj :=
  (Rfc5639.versionOne.addArcs [7])

/-- rfc5639.py:37 -/
def brainpoolP256t1 : Py.Obj :=
  (Rfc5639.versionOne.addArcs [8])

/-- rfc5639.py:39 -/
def brainpoolP320r1 : Py.Obj :=
  (Rfc5639.versionOne.addArcs [9])

/-- rfc5639.py:41 -/
def brainpoolP320t1 : Py.Obj :=
  (Rfc5639.versionOne.addArcs [10])

/-- rfc5639.py:43 -/
def brainpoolP384r1 : Py.Obj :=
  (Rfc5639.versionOne.addArcs [11])

/-- rfc5639.py:45 -/
def brainpoolP384t1 : Py.Obj :=
  (Rfc5639.versionOne.addArcs [12])

/-- rfc5639.py:47 -/
def brainpoolP512r1 : Py.Obj :=
  (Rfc5639.versionOne.addArcs [13])

/-- rfc5639.py:49 -/
def brainpoolP512t1 : Py.Obj :=
  (Rfc5639.versionOne.addArcs [14])

/-- Modules of this package imported by rfc5639.py, in textual order. -/
def imports : List Py.Ident :=
  []

/-- Dictionary operations executed when rfc5639.py is imported, in program order. -/
def effects : List Py.Effect :=
  []

/-- ASN.1 types rfc5639.py binds at module level (final version of each name), plus nested classes. -/
def classes : List (String × Py.Obj) :=
  []

/-- pyasn1 instances rfc5639.py binds at module level. -/
def objects : List (String × Py.Obj) :=
  [("rfc5639.ecStdCurvesAndGeneration", Rfc5639.ecStdCurvesAndGeneration),
   ("rfc5639.ellipticCurve", Rfc5639.ellipticCurve),
   ("rfc5639.versionOne", Rfc5639.versionOne),
   ("rfc5639.brainpoolP160r1", Rfc5639.brainpoolP160r1),
   ("rfc5639.brainpoolP160t1", Rfc5639.brainpoolP160t1),
   ("rfc5639.brainpoolP192r1", Rfc5639.brainpoolP192r1),
   ("rfc5639.brainpoolP192t1", Rfc5639.brainpoolP192t1),
   ("rfc5639.brainpoolP224r1", Rfc5639.brainpoolP224r1),
   ("rfc5639.brainpoolP224t1", Rfc5639.brainpoolP224t1),
   ("rfc5639.brainpoolP256r1", Rfc5639.brainpoolP256r1),
   ("rfc5639.brainpoolP256t1", Rfc5639.brainpoolP256t1),
   ("rfc5639.brainpoolP320r1", Rfc5639.brainpoolP320r1),
   ("rfc5639.brainpoolP320t1", Rfc5639.brainpoolP320t1),
   ("rfc5639.brainpoolP384r1", Rfc5639.brainpoolP384r1),
   ("rfc5639.brainpoolP384t1", Rfc5639.brainpoolP384t1),
   ("rfc5639.brainpoolP512r1", Rfc5639.brainpoolP512r1),
   ("rfc5639.brainpoolP512t1", Rfc5639.brainpoolP512t1)]

/-- pyasn1 instances rfc5639.py fills in by item assignment. -/
def protos : List (String × Py.Proto) :=
  []

/-- Every place of rfc5639.py that instantiates a class of the package: where, the class as it is
at that point, and the class as it is when the import has finished. -/
def snapshots : List Py.Snapshot :=
  []

/-- Functions rfc5639.py defines. -/
def builders : List (String × (List Py.OidArg → Py.Obj)) :=
  []

def asModule : Py.Module :=
  { id := (Py.mod 73 "rfc5639"), imports := imports, effects := effects, classes := classes, objects := objects, protos := protos, snapshots := snapshots, builders := builders }

end Rfc5639
end Verif
