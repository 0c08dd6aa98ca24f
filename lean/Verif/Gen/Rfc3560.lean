import Verif.Py.Obj
import Verif.Gen.Rfc4055

/-! Transcription of /repo/pyasn1_modules/rfc3560.py (generated by tools/gen.py). -/

namespace Verif
namespace Rfc3560

/-- rfc3560.py:21 alias of `rfc4055.id_sha1` -/
def id_sha1 : Py.Obj :=
  Rfc4055.id_sha1

/-- rfc3560.py:23 alias of `rfc4055.id_sha256` -/
def id_sha256 : Py.Obj :=
  Rfc4055.id_sha256

/-- rfc3560.py:25 alias of `rfc4055.id_sha384` -/
def id_sha384 : Py.Obj :=
  Rfc4055.id_sha384

/-- rfc3560.py:27 alias of `rfc4055.id_sha512` -/
def id_sha512 : Py.Obj :=
  Rfc4055.id_sha512

/-- rfc3560.py:29 alias of `rfc4055.id_mgf1` -/
def id_mgf1 : Py.Obj :=
  Rfc4055.id_mgf1

/-- rfc3560.py:31 alias of `rfc4055.rsaEncryption` -/
def rsaEncryption : Py.Obj :=
  Rfc4055.rsaEncryption

/-- rfc3560.py:33 alias of `rfc4055.id_RSAES_OAEP` -/
def id_RSAES_OAEP : Py.Obj :=
  Rfc4055.id_RSAES_OAEP

/-- rfc3560.py:35 alias of `rfc4055.id_pSpecified` -/
def id_pSpecified : Py.Obj :=
  Rfc4055.id_pSpecified

/-- rfc3560.py:37 alias of `rfc4055.sha1Identifier` -/
def sha1Identifier : Py.Proto :=
  Rfc4055.sha1Identifier

/-- rfc3560.py:39 alias of `rfc4055.sha256Identifier` -/
def sha256Identifier : Py.Proto :=
  Rfc4055.sha256Identifier

/-- rfc3560.py:41 alias of `rfc4055.sha384Identifier` -/
def sha384Identifier : Py.Proto :=
  Rfc4055.sha384Identifier

/-- rfc3560.py:43 alias of `rfc4055.sha512Identifier` -/
def sha512Identifier : Py.Proto :=
  Rfc4055.sha512Identifier

/-- rfc3560.py:45 alias of `rfc4055.mgf1SHA1Identifier` -/
def mgf1SHA1Identifier : Py.Proto :=
  Rfc4055.mgf1SHA1Identifier

/-- rfc3560.py:47 alias of `rfc4055.mgf1SHA256Identifier` -/
def mgf1SHA256Identifier : Py.Proto :=
  Rfc4055.mgf1SHA256Identifier

/-- rfc3560.py:49 alias of `rfc4055.mgf1SHA384Identifier` -/
def mgf1SHA384Identifier : Py.Proto :=
  Rfc4055.mgf1SHA384Identifier

/-- rfc3560.py:51 alias of `rfc4055.mgf1SHA512Identifier` -/
def mgf1SHA512Identifier : Py.Proto :=
  Rfc4055.mgf1SHA512Identifier

/-- rfc3560.py:53 alias of `rfc4055.pSpecifiedEmptyIdentifier` -/
def pSpecifiedEmptyIdentifier : Py.Proto :=
  Rfc4055.pSpecifiedEmptyIdentifier

/-- rfc3560.py:56-57 `class RSAES_OAEP_params(rfc4055.RSAES_OAEP_params)` -/
def RSAES_OAEP_params : Py.Obj :=
  Rfc4055.RSAES_OAEP_params

/-- rfc3560.py:60 -/
def rSAES_OAEP_Default_Params : Py.Obj :=
  Rfc3560.RSAES_OAEP_params.call

/-- rfc3560.py:62 alias of `rfc4055.rSAES_OAEP_Default_Identifier` -/
def rSAES_OAEP_Default_Identifier : Py.Proto :=
  Rfc4055.rSAES_OAEP_Default_Identifier

/-- rfc3560.py:64 alias of `rfc4055.rSAES_OAEP_SHA256_Params` -/
def rSAES_OAEP_SHA256_Params : Py.Proto :=
  Rfc4055.rSAES_OAEP_SHA256_Params

/-- rfc3560.py:66 alias of `rfc4055.rSAES_OAEP_SHA256_Identifier` -/
def rSAES_OAEP_SHA256_Identifier : Py.Proto :=
  Rfc4055.rSAES_OAEP_SHA256_Identifier

/-- rfc3560.py:68 alias of `rfc4055.rSAES_OAEP_SHA384_Params` -/
def rSAES_OAEP_SHA384_Params : Py.Proto :=
  Rfc4055.rSAES_OAEP_SHA384_Params

/-- rfc3560.py:70 alias of `rfc4055.rSAES_OAEP_SHA384_Identifier` -/
def rSAES_OAEP_SHA384_Identifier : Py.Proto :=
  Rfc4055.rSAES_OAEP_SHA384_Identifier

/-- rfc3560.py:72 alias of `rfc4055.rSAES_OAEP_SHA512_Params` -/
def rSAES_OAEP_SHA512_Params : Py.Proto :=
  Rfc4055.rSAES_OAEP_SHA512_Params

/-- rfc3560.py:74 alias of `rfc4055.rSAES_OAEP_SHA512_Identifier` -/
def rSAES_OAEP_SHA512_Identifier : Py.Proto :=
  Rfc4055.rSAES_OAEP_SHA512_Identifier

/-- Modules of this package imported by rfc3560.py, in textual order. -/
def imports : List Py.Ident :=
  [(Py.mod 42 "rfc4055")]

/-- Dictionary operations executed when rfc3560.py is imported, in program order. -/
def effects : List Py.Effect :=
  []

/-- ASN.1 types rfc3560.py binds at module level (final version of each name), plus nested classes. -/
def classes : List (String × Py.Obj) :=
  [("rfc3560.RSAES_OAEP_params", Rfc3560.RSAES_OAEP_params)]

/-- pyasn1 instances rfc3560.py binds at module level. -/
def objects : List (String × Py.Obj) :=
  [("rfc3560.id_sha1", Rfc3560.id_sha1),
   ("rfc3560.id_sha256", Rfc3560.id_sha256),
   ("rfc3560.id_sha384", Rfc3560.id_sha384),
   ("rfc3560.id_sha512", Rfc3560.id_sha512),
   ("rfc3560.id_mgf1", Rfc3560.id_mgf1),
   ("rfc3560.rsaEncryption", Rfc3560.rsaEncryption),
   ("rfc3560.id_RSAES_OAEP", Rfc3560.id_RSAES_OAEP),
   ("rfc3560.id_pSpecified", Rfc3560.id_pSpecified),
   ("rfc3560.rSAES_OAEP_Default_Params", Rfc3560.rSAES_OAEP_Default_Params)]

/-- pyasn1 instances rfc3560.py fills in by item assignment. -/
def protos : List (String × Py.Proto) :=
  [("rfc3560.sha1Identifier", Rfc3560.sha1Identifier),
   ("rfc3560.sha256Identifier", Rfc3560.sha256Identifier),
   ("rfc3560.sha384Identifier", Rfc3560.sha384Identifier),
   ("rfc3560.sha512Identifier", Rfc3560.sha512Identifier),
   ("rfc3560.mgf1SHA1Identifier", Rfc3560.mgf1SHA1Identifier),
   ("rfc3560.mgf1SHA256Identifier", Rfc3560.mgf1SHA256Identifier),
   ("rfc3560.mgf1SHA384Identifier", Rfc3560.mgf1SHA384Identifier),
   ("rfc3560.mgf1SHA512Identifier", Rfc3560.mgf1SHA512Identifier),
   ("rfc3560.pSpecifiedEmptyIdentifier", Rfc3560.pSpecifiedEmptyIdentifier),
   ("rfc3560.rSAES_OAEP_Default_Identifier", Rfc3560.rSAES_OAEP_Default_Identifier),
   ("rfc3560.rSAES_OAEP_SHA256_Params", Rfc3560.rSAES_OAEP_SHA256_Params),
   ("rfc3560.rSAES_OAEP_SHA256_Identifier", Rfc3560.rSAES_OAEP_SHA256_Identifier),
   ("rfc3560.rSAES_OAEP_SHA384_Params", Rfc3560.rSAES_OAEP_SHA384_Params),
   ("rfc3560.rSAES_OAEP_SHA384_Identifier", Rfc3560.rSAES_OAEP_SHA384_Identifier),
   ("rfc3560.rSAES_OAEP_SHA512_Params", Rfc3560.rSAES_OAEP_SHA512_Params),
   ("rfc3560.rSAES_OAEP_SHA512_Identifier", Rfc3560.rSAES_OAEP_SHA512_Identifier)]

/-- Every place of rfc3560.py that instantiates a class of the package: where, the class as it is
at that point, and the class as it is when the import has finished. -/
def snapshots : List Py.Snapshot :=
  [⟨"rfc3560.py:60", Rfc3560.RSAES_OAEP_params, Rfc3560.RSAES_OAEP_params⟩]

/-- Functions rfc3560.py defines. -/
def builders : List (String × (List Py.OidArg → Py.Obj)) :=
  []

def asModule : Py.Module :=
  { id := (Py.mod 43 "rfc3560"), imports := imports, effects := effects, classes := classes, objects := objects, protos := protos, snapshots := snapshots, builders := builders }

end Rfc3560
end Verif
