import Verif.Py.Obj
import Verif.Gen.Rfc3565
import Verif.Gen.Rfc4055
import Verif.Gen.Rfc5280

/-! Transcription of /repo/pyasn1_modules/rfc8410.py (generated by tools/gen.py). -/

namespace Verif
namespace Rfc8410

/-- rfc8410.py:19-20 `class SignatureAlgorithmIdentifier(rfc5280.AlgorithmIdentifier)` -/
def SignatureAlgorithmIdentifier : Py.Obj :=
  Rfc5280.AlgorithmIdentifier

/-- rfc8410.py:23-24 `class KeyEncryptionAlgorithmIdentifier(rfc5280.AlgorithmIdentifier)` -/
def KeyEncryptionAlgorithmIdentifier : Py.Obj :=
  Rfc5280.AlgorithmIdentifier

/-- rfc8410.py:27-28 `class CurvePrivateKey(univ.OctetString)` -/
def CurvePrivateKey : Py.Obj :=
  Py.univ.OctetString

/-- rfc8410.py:31 -/
def id_X25519 : Py.Obj :=
  (Py.univ.ObjectIdentifier.call.callArcs [1, 3, 101, 110])

/-- rfc8410.py:33 -/
def id_X448 : Py.Obj :=
  (Py.univ.ObjectIdentifier.call.callArcs [1, 3, 101, 111])

/-- rfc8410.py:35 -/
def id_Ed25519 : Py.Obj :=
  (Py.univ.ObjectIdentifier.call.callArcs [1, 3, 101, 112])

/-- rfc8410.py:37 -/
def id_Ed448 : Py.Obj :=
  (Py.univ.ObjectIdentifier.call.callArcs [1, 3, 101, 113])

/-- rfc8410.py:39 alias of `rfc4055.id_sha512` -/
def id_sha512 : Py.Obj :=
  Rfc4055.id_sha512

/-- rfc8410.py:41 alias of `rfc3565.id_aes128_wrap` -/
def id_aes128_wrap : Py.Obj :=
  Rfc3565.id_aes128_wrap

/-- rfc8410.py:43 alias of `rfc3565.id_aes256_wrap` -/
def id_aes256_wrap : Py.Obj :=
  Rfc3565.id_aes256_wrap

/-- Modules of this package imported by rfc8410.py, in textual order. -/
def imports : List Py.Ident :=
  [(Py.mod 18 "rfc3565"), (Py.mod 42 "rfc4055"), (Py.mod 15 "rfc5280")]

/-- Dictionary operations executed when rfc8410.py is imported, in program order. -/
def effects : List Py.Effect :=
  []

/-- ASN.1 types rfc8410.py binds at module level (final version of each name), plus nested classes. -/
def classes : List (String × Py.Obj) :=
  [("rfc8410.SignatureAlgorithmIdentifier", Rfc8410.SignatureAlgorithmIdentifier),
   ("rfc8410.KeyEncryptionAlgorithmIdentifier", Rfc8410.KeyEncryptionAlgorithmIdentifier),
   ("rfc8410.CurvePrivateKey", Rfc8410.CurvePrivateKey)]

/-- pyasn1 instances rfc8410.py binds at module level. -/
def objects : List (String × Py.Obj) :=
  [("rfc8410.id_X25519", Rfc8410.id_X25519),
   ("rfc8410.id_X448", Rfc8410.id_X448),
   ("rfc8410.id_Ed25519", Rfc8410.id_Ed25519),
   ("rfc8410.id_Ed448", Rfc8410.id_Ed448),
   ("rfc8410.id_sha512", Rfc8410.id_sha512),
   ("rfc8410.id_aes128_wrap", Rfc8410.id_aes128_wrap),
   ("rfc8410.id_aes256_wrap", Rfc8410.id_aes256_wrap)]

/-- pyasn1 instances rfc8410.py fills in by item assignment. -/
def protos : List (String × Py.Proto) :=
  []

/-- Every place of rfc8410.py that instantiates a class of the package: where, the class as it is
at that point, and the class as it is when the import has finished. -/
def snapshots : List Py.Snapshot :=
  []

/-- Functions rfc8410.py defines. -/
def builders : List (String × (List Py.OidArg → Py.Obj)) :=
  []

def asModule : Py.Module :=
  { id := (Py.mod 117 "rfc8410"), imports := imports, effects := effects, classes := classes, objects := objects, protos := protos, snapshots := snapshots, builders := builders }

end Rfc8410
end Verif
