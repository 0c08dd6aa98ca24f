import Verif.Py.Obj
import Verif.Gen.Rfc5280

/-! Transcription of /repo/pyasn1_modules/rfc5649.py (generated by tools/gen.py). -/

namespace Verif
namespace Rfc5649

/-- rfc5649.py:18-19 `class AlgorithmIdentifier(rfc5280.AlgorithmIdentifier)` -/
def AlgorithmIdentifier : Py.Obj :=
  Rfc5280.AlgorithmIdentifier

/-- rfc5649.py:22 -/
def id_aes128_wrap : Py.Obj :=
  (Py.univ.ObjectIdentifier.call.callArcs [2, 16, 840, 1, 101, 3, 4, 1, 5])

/-- rfc5649.py:24 -/
def id_aes192_wrap : Py.Obj :=
  (Py.univ.ObjectIdentifier.call.callArcs [2, 16, 840, 1, 101, 3, 4, 1, 25])

/-- rfc5649.py:26 -/
def id_aes256_wrap : Py.Obj :=
  (Py.univ.ObjectIdentifier.call.callArcs [2, 16, 840, 1, 101, 3, 4, 1, 45])

/-- rfc5649.py:29 -/
def id_aes128_wrap_pad : Py.Obj :=
  (Py.univ.ObjectIdentifier.call.callArcs [2, 16, 840, 1, 101, 3, 4, 1, 8])

/-- rfc5649.py:31 -/
def id_aes192_wrap_pad : Py.Obj :=
  (Py.univ.ObjectIdentifier.call.callArcs [2, 16, 840, 1, 101, 3, 4, 1, 28])

/-- rfc5649.py:33 -/
def id_aes256_wrap_pad : Py.Obj :=
  (Py.univ.ObjectIdentifier.call.callArcs [2, 16, 840, 1, 101, 3, 4, 1, 48])

/-- Modules of this package imported by rfc5649.py, in textual order. -/
def imports : List Py.Ident :=
  [(Py.mod 15 "rfc5280")]

/-- Dictionary operations executed when rfc5649.py is imported, in program order. -/
def effects : List Py.Effect :=
  []

/-- ASN.1 types rfc5649.py binds at module level (final version of each name), plus nested classes. -/
def classes : List (String × Py.Obj) :=
  [("rfc5649.AlgorithmIdentifier", Rfc5649.AlgorithmIdentifier)]

/-- pyasn1 instances rfc5649.py binds at module level. -/
def objects : List (String × Py.Obj) :=
  [("rfc5649.id_aes128_wrap", Rfc5649.id_aes128_wrap),
   ("rfc5649.id_aes192_wrap", Rfc5649.id_aes192_wrap),
   ("rfc5649.id_aes256_wrap", Rfc5649.id_aes256_wrap),
   ("rfc5649.id_aes128_wrap_pad", Rfc5649.id_aes128_wrap_pad),
   ("rfc5649.id_aes192_wrap_pad", Rfc5649.id_aes192_wrap_pad),
   ("rfc5649.id_aes256_wrap_pad", Rfc5649.id_aes256_wrap_pad)]

/-- pyasn1 instances rfc5649.py fills in by item assignment. -/
def protos : List (String × Py.Proto) :=
  []

/-- Every place of rfc5649.py that instantiates a class of the package: where, the class as it is
at that point, and the class as it is when the import has finished. -/
def snapshots : List Py.Snapshot :=
  []

/-- Functions rfc5649.py defines. -/
def builders : List (String × (List Py.OidArg → Py.Obj)) :=
  []

def asModule : Py.Module :=
  { id := (Py.mod 74 "rfc5649"), imports := imports, effects := effects, classes := classes, objects := objects, protos := protos, snapshots := snapshots, builders := builders }

end Rfc5649
end Verif
