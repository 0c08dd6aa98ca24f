import Verif.Py.Obj
import Verif.Gen.Rfc2459

/-! Transcription of /repo/pyasn1_modules/rfc2437.py (generated by tools/gen.py). -/

namespace Verif
namespace Rfc2437

/-- rfc2437.py:20 -/
def pkcs_1 : Py.Obj :=
  (Py.univ.ObjectIdentifier.call.callArcs [1, 2, 840, 113549, 1, 1])

/-- rfc2437.py:21 -/
def rsaEncryption : Py.Obj :=
  (Py.univ.ObjectIdentifier.call.callArcs [1, 2, 840, 113549, 1, 1, 1])

/-- rfc2437.py:22 -/
def md2WithRSAEncryption : Py.Obj :=
  (Py.univ.ObjectIdentifier.call.callArcs [1, 2, 840, 113549, 1, 1, 2])

/-- rfc2437.py:23 -/
def md4WithRSAEncryption : Py.Obj :=
  (Py.univ.ObjectIdentifier.call.callArcs [1, 2, 840, 113549, 1, 1, 3])

/-- rfc2437.py:24 -/
def md5WithRSAEncryption : Py.Obj :=
  (Py.univ.ObjectIdentifier.call.callArcs [1, 2, 840, 113549, 1, 1, 4])

/-- rfc2437.py:25 -/
def sha1WithRSAEncryption : Py.Obj :=
  (Py.univ.ObjectIdentifier.call.callArcs [1, 2, 840, 113549, 1, 1, 5])

/-- rfc2437.py:26 -/
def rsaOAEPEncryptionSET : Py.Obj :=
  (Py.univ.ObjectIdentifier.call.callArcs [1, 2, 840, 113549, 1, 1, 6])

/-- rfc2437.py:27 -/
def id_RSAES_OAEP : Py.Obj :=
  (Py.univ.ObjectIdentifier.call.callArcs [1, 2, 840, 113549, 1, 1, 7])

/-- rfc2437.py:28 -/
def id_mgf1 : Py.Obj :=
  (Py.univ.ObjectIdentifier.call.callArcs [1, 2, 840, 113549, 1, 1, 8])

/-- rfc2437.py:29 -/
def id_pSpecified : Py.Obj :=
  (Py.univ.ObjectIdentifier.call.callArcs [1, 2, 840, 113549, 1, 1, 9])

/-- rfc2437.py:30 -/
def id_sha1 : Py.Obj :=
  (Py.univ.ObjectIdentifier.call.callArcs [1, 3, 14, 3, 2, 26])

/-- rfc2437.py:32 -/
def MAX : Py.Bound :=
  .inf

/-- rfc2437.py:35-36 `class Version(univ.Integer)` -/
def Version : Py.Obj :=
  Py.univ.Integer

/-- rfc2437.py:39-50 `class RSAPrivateKey(univ.Sequence)` -/
def RSAPrivateKey : Py.Obj :=
  Py.univ.Sequence.setComponentType (Py.NamedTypes [
    Py.NamedType "version" Rfc2437.Version.call,
    Py.NamedType "modulus" Py.univ.Integer.call,
    Py.NamedType "publicExponent" Py.univ.Integer.call,
    Py.NamedType "privateExponent" Py.univ.Integer.call,
    Py.NamedType "prime1" Py.univ.Integer.call,
    Py.NamedType "prime2" Py.univ.Integer.call,
    Py.NamedType "exponent1" Py.univ.Integer.call,
    Py.NamedType "exponent2" Py.univ.Integer.call,
    Py.NamedType "coefficient" Py.univ.Integer.call])

/-- rfc2437.py:53-57 `class RSAPublicKey(univ.Sequence)` -/
def RSAPublicKey : Py.Obj :=
  Py.univ.Sequence.setComponentType (Py.NamedTypes [
    Py.NamedType "modulus" Py.univ.Integer.call,
    Py.NamedType "publicExponent" Py.univ.Integer.call])

/-- rfc2437.py:61-69 `class RSAES_OAEP_params(univ.Sequence)` -/
def RSAES_OAEP_params : Py.Obj :=
  Py.univ.Sequence.setComponentType (Py.NamedTypes [
    Py.NamedType "hashFunc" (Rfc2459.AlgorithmIdentifier.call.implicitTag (Py.Tag .context true 0)),
    Py.NamedType "maskGenFunc" (Rfc2459.AlgorithmIdentifier.call.implicitTag (Py.Tag .context true 1)),
    Py.NamedType "pSourceFunc" (Rfc2459.AlgorithmIdentifier.call.implicitTag (Py.Tag .context true 2))])

/-- Modules of this package imported by rfc2437.py, in textual order. -/
def imports : List Py.Ident :=
  [(Py.mod 6 "rfc2459")]

/-- Dictionary operations executed when rfc2437.py is imported, in program order. -/
def effects : List Py.Effect :=
  []

/-- ASN.1 types rfc2437.py binds at module level (final version of each name), plus nested classes. -/
def classes : List (String × Py.Obj) :=
  [("rfc2437.Version", Rfc2437.Version),
   ("rfc2437.RSAPrivateKey", Rfc2437.RSAPrivateKey),
   ("rfc2437.RSAPublicKey", Rfc2437.RSAPublicKey),
   ("rfc2437.RSAES_OAEP_params", Rfc2437.RSAES_OAEP_params)]

/-- pyasn1 instances rfc2437.py binds at module level. -/
def objects : List (String × Py.Obj) :=
  [("rfc2437.pkcs_1", Rfc2437.pkcs_1),
   ("rfc2437.rsaEncryption", Rfc2437.rsaEncryption),
   ("rfc2437.md2WithRSAEncryption", Rfc2437.md2WithRSAEncryption),
   ("rfc2437.md4WithRSAEncryption", Rfc2437.md4WithRSAEncryption),
   ("rfc2437.md5WithRSAEncryption", Rfc2437.md5WithRSAEncryption),
   ("rfc2437.sha1WithRSAEncryption", Rfc2437.sha1WithRSAEncryption),
   ("rfc2437.rsaOAEPEncryptionSET", Rfc2437.rsaOAEPEncryptionSET),
   ("rfc2437.id_RSAES_OAEP", Rfc2437.id_RSAES_OAEP),
   ("rfc2437.id_mgf1", Rfc2437.id_mgf1),
   ("rfc2437.id_pSpecified", Rfc2437.id_pSpecified),
   ("rfc2437.id_sha1", Rfc2437.id_sha1)]

/-- pyasn1 instances rfc2437.py fills in by item assignment. -/
def protos : List (String × Py.Proto) :=
  []

/-- Every place of rfc2437.py that instantiates a class of the package: where, the class as it is
at that point, and the class as it is when the import has finished. -/
def snapshots : List Py.Snapshot :=
  [⟨"rfc2437.py:41", Rfc2437.Version, Rfc2437.Version⟩,
   ⟨"rfc2437.py:63", Rfc2459.AlgorithmIdentifier, Rfc2459.AlgorithmIdentifier⟩,
   ⟨"rfc2437.py:65", Rfc2459.AlgorithmIdentifier, Rfc2459.AlgorithmIdentifier⟩,
   ⟨"rfc2437.py:67", Rfc2459.AlgorithmIdentifier, Rfc2459.AlgorithmIdentifier⟩]

/-- Functions rfc2437.py defines. -/
def builders : List (String × (List Py.OidArg → Py.Obj)) :=
  []

def asModule : Py.Module :=
  { id := (Py.mod 9 "rfc2437"), imports := imports, effects := effects, classes := classes, objects := objects, protos := protos, snapshots := snapshots, builders := builders }

end Rfc2437
end Verif
