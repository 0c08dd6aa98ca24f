import Verif.Py.Obj
import Verif.Gen.Rfc5280

/-! Transcription of /repo/pyasn1_modules/rfc8418.py (generated by tools/gen.py). -/

namespace Verif
namespace Rfc8418

/-- rfc8418.py:18-19 `class KeyEncryptionAlgorithmIdentifier(rfc5280.AlgorithmIdentifier)` -/
def KeyEncryptionAlgorithmIdentifier : Py.Obj :=
  Rfc5280.AlgorithmIdentifier

/-- rfc8418.py:22-23 `class KeyWrapAlgorithmIdentifier(rfc5280.AlgorithmIdentifier)` -/
def KeyWrapAlgorithmIdentifier : Py.Obj :=
  Rfc5280.AlgorithmIdentifier

/-- rfc8418.py:26 -/
def dhSinglePass_stdDH_sha256kdf_scheme : Py.Obj :=
  (Py.univ.ObjectIdentifier.call.callArcs [1, 3, 133, 16, 840, 63, 0, 11, 1])

/-- rfc8418.py:28 -/
def dhSinglePass_stdDH_sha384kdf_scheme : Py.Obj :=
  (Py.univ.ObjectIdentifier.call.callArcs [1, 3, 133, 16, 840, 63, 0, 11, 2])

/-- rfc8418.py:30 -/
def dhSinglePass_stdDH_sha512kdf_scheme : Py.Obj :=
  (Py.univ.ObjectIdentifier.call.callArcs [1, 3, 133, 16, 840, 63, 0, 11, 3])

/-- rfc8418.py:32 -/
def dhSinglePass_stdDH_hkdf_sha256_scheme : Py.Obj :=
  (Py.univ.ObjectIdentifier.call.callArcs [1, 2, 840, 113549, 1, 9, 16, 3, 19])

/-- rfc8418.py:34 -/
def dhSinglePass_stdDH_hkdf_sha384_scheme : Py.Obj :=
  (Py.univ.ObjectIdentifier.call.callArcs [1, 2, 840, 113549, 1, 9, 16, 3, 20])

/-- rfc8418.py:36 -/
def dhSinglePass_stdDH_hkdf_sha512_scheme : Py.Obj :=
  (Py.univ.ObjectIdentifier.call.callArcs [1, 2, 840, 113549, 1, 9, 16, 3, 21])

/-- Modules of this package imported by rfc8418.py, in textual order. -/
def imports : List Py.Ident :=
  [(Py.mod 15 "rfc5280")]

/-- Dictionary operations executed when rfc8418.py is imported, in program order. -/
def effects : List Py.Effect :=
  []

/-- ASN.1 types rfc8418.py binds at module level (final version of each name), plus nested classes. -/
def classes : List (String × Py.Obj) :=
  [("rfc8418.KeyEncryptionAlgorithmIdentifier", Rfc8418.KeyEncryptionAlgorithmIdentifier),
   ("rfc8418.KeyWrapAlgorithmIdentifier", Rfc8418.KeyWrapAlgorithmIdentifier)]

/-- pyasn1 instances rfc8418.py binds at module level. -/
def objects : List (String × Py.Obj) :=
  [("rfc8418.dhSinglePass_stdDH_sha256kdf_scheme", Rfc8418.dhSinglePass_stdDH_sha256kdf_scheme),
   ("rfc8418.dhSinglePass_stdDH_sha384kdf_scheme", Rfc8418.dhSinglePass_stdDH_sha384kdf_scheme),
   ("rfc8418.dhSinglePass_stdDH_sha512kdf_scheme", Rfc8418.dhSinglePass_stdDH_sha512kdf_scheme),
   ("rfc8418.dhSinglePass_stdDH_hkdf_sha256_scheme", Rfc8418.dhSinglePass_stdDH_hkdf_sha256_scheme),
   ("rfc8418.dhSinglePass_stdDH_hkdf_sha384_scheme", Rfc8418.dhSinglePass_stdDH_hkdf_sha384_scheme),
   ("rfc8418.dhSinglePass_stdDH_hkdf_sha512_scheme", Rfc8418.dhSinglePass_stdDH_hkdf_sha512_scheme)]

/-- pyasn1 instances rfc8418.py fills in by item assignment. -/
def protos : List (String × Py.Proto) :=
  []

/-- Every place of rfc8418.py that instantiates a class of the package: where, the class as it is
at that point, and the class as it is when the import has finished. -/
def snapshots : List Py.Snapshot :=
  []

/-- Functions rfc8418.py defines. -/
def builders : List (String × (List Py.OidArg → Py.Obj)) :=
  []

def asModule : Py.Module :=
  { id := (Py.mod 118 "rfc8418"), imports := imports, effects := effects, classes := classes, objects := objects, protos := protos, snapshots := snapshots, builders := builders }

end Rfc8418
end Verif
