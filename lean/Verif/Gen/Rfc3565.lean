import Verif.Py.Obj
import Verif.Gen.Rfc5280

/-! Transcription of /repo/pyasn1_modules/rfc3565.py (generated by tools/gen.py). -/

namespace Verif
namespace Rfc3565

/-- rfc3565.py:22-23 `class AlgorithmIdentifier(rfc5280.AlgorithmIdentifier)` -/
def AlgorithmIdentifier : Py.Obj :=
  Rfc5280.AlgorithmIdentifier

/-- rfc3565.py:26-27 `class AES_IV(univ.OctetString)` -/
def AES_IV__0 : Py.Obj :=
  Py.univ.OctetString

/-- rfc3565.py:29 `AES_IV.subtypeSpec = ...` -/
def AES_IV : Py.Obj :=
  Rfc3565.AES_IV__0.setSubtypeSpec (Py.ValueSizeConstraint (.fin 16) (.fin 16))

/-- rfc3565.py:32 -/
def id_aes128_CBC : Py.Obj :=
  (Py.univ.ObjectIdentifier.call.callArcs [2, 16, 840, 1, 101, 3, 4, 1, 2])

/-- rfc3565.py:34 -/
def id_aes192_CBC : Py.Obj :=
  (Py.univ.ObjectIdentifier.call.callArcs [2, 16, 840, 1, 101, 3, 4, 1, 22])

/-- rfc3565.py:36 -/
def id_aes256_CBC : Py.Obj :=
  (Py.univ.ObjectIdentifier.call.callArcs [2, 16, 840, 1, 101, 3, 4, 1, 42])

/-- rfc3565.py:39 -/
def id_aes128_wrap : Py.Obj :=
  (Py.univ.ObjectIdentifier.call.callArcs [2, 16, 840, 1, 101, 3, 4, 1, 5])

/-- rfc3565.py:41 -/
def id_aes192_wrap : Py.Obj :=
  (Py.univ.ObjectIdentifier.call.callArcs [2, 16, 840, 1, 101, 3, 4, 1, 25])

/-- rfc3565.py:43 -/
def id_aes256_wrap : Py.Obj :=
  (Py.univ.ObjectIdentifier.call.callArcs [2, 16, 840, 1, 101, 3, 4, 1, 45])

/-- rfc3565.py:48-55 -/
def _algorithmIdentifierMapUpdate : Py.Entries :=
  [(Rfc3565.id_aes128_CBC.value, Rfc3565.AES_IV.call.ty),
    (Rfc3565.id_aes192_CBC.value, Rfc3565.AES_IV.call.ty),
    (Rfc3565.id_aes256_CBC.value, Rfc3565.AES_IV.call.ty),
    (Rfc3565.id_aes128_wrap.value, Py.univ.Null.call.ty),
    (Rfc3565.id_aes192_wrap.value, Py.univ.Null.call.ty),
    (Rfc3565.id_aes256_wrap.value, Py.univ.Null.call.ty)]

/-- Modules of this package imported by rfc3565.py, in textual order. -/
def imports : List Py.Ident :=
  [(Py.mod 15 "rfc5280")]

/-- Dictionary operations executed when rfc3565.py is imported, in program order. -/
def effects : List Py.Effect :=
  [.create (Py.map 44 "rfc3565._algorithmIdentifierMapUpdate") Rfc3565._algorithmIdentifierMapUpdate /- rfc3565.py:48-55 -/,
   .update (Py.map 3 "rfc5280.algorithmIdentifierMap") Rfc3565._algorithmIdentifierMapUpdate /- rfc3565.py:57 -/]

/-- ASN.1 types rfc3565.py binds at module level (final version of each name), plus nested classes. -/
def classes : List (String × Py.Obj) :=
  [("rfc3565.AlgorithmIdentifier", Rfc3565.AlgorithmIdentifier),
   ("rfc3565.AES_IV", Rfc3565.AES_IV)]

/-- pyasn1 instances rfc3565.py binds at module level. -/
def objects : List (String × Py.Obj) :=
  [("rfc3565.id_aes128_CBC", Rfc3565.id_aes128_CBC),
   ("rfc3565.id_aes192_CBC", Rfc3565.id_aes192_CBC),
   ("rfc3565.id_aes256_CBC", Rfc3565.id_aes256_CBC),
   ("rfc3565.id_aes128_wrap", Rfc3565.id_aes128_wrap),
   ("rfc3565.id_aes192_wrap", Rfc3565.id_aes192_wrap),
   ("rfc3565.id_aes256_wrap", Rfc3565.id_aes256_wrap)]

/-- pyasn1 instances rfc3565.py fills in by item assignment. -/
def protos : List (String × Py.Proto) :=
  []

/-- Every place of rfc3565.py that instantiates a class of the package: where, the class as it is
at that point, and the class as it is when the import has finished. -/
def snapshots : List Py.Snapshot :=
  [⟨"rfc3565.py:49", Rfc3565.AES_IV, Rfc3565.AES_IV⟩,
   ⟨"rfc3565.py:50", Rfc3565.AES_IV, Rfc3565.AES_IV⟩,
   ⟨"rfc3565.py:51", Rfc3565.AES_IV, Rfc3565.AES_IV⟩]

/-- Functions rfc3565.py defines. -/
def builders : List (String × (List Py.OidArg → Py.Obj)) :=
  []

def asModule : Py.Module :=
  { id := (Py.mod 18 "rfc3565"), imports := imports, effects := effects, classes := classes, objects := objects, protos := protos, snapshots := snapshots, builders := builders }

end Rfc3565
end Verif
