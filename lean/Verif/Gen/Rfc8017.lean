import Verif.Py.Obj
import Verif.Gen.Rfc2437
import Verif.Gen.Rfc3447
import Verif.Gen.Rfc4055
import Verif.Gen.Rfc5280

/-! Transcription of /repo/pyasn1_modules/rfc8017.py (generated by tools/gen.py). -/

namespace Verif
namespace Rfc8017

/-- rfc8017.py:25 -/
def MAX : Py.Bound :=
  .inf

/-- rfc8017.py:30 alias of `rfc5280.AlgorithmIdentifier` -/
def AlgorithmIdentifier : Py.Obj :=
  Rfc5280.AlgorithmIdentifier

/-- rfc8017.py:32-33 `class DigestAlgorithm(AlgorithmIdentifier)` -/
def DigestAlgorithm : Py.Obj :=
  Rfc8017.AlgorithmIdentifier

/-- rfc8017.py:35-36 `class HashAlgorithm(AlgorithmIdentifier)` -/
def HashAlgorithm : Py.Obj :=
  Rfc8017.AlgorithmIdentifier

/-- rfc8017.py:38-39 `class MaskGenAlgorithm(AlgorithmIdentifier)` -/
def MaskGenAlgorithm : Py.Obj :=
  Rfc8017.AlgorithmIdentifier

/-- rfc8017.py:41-42 `class PSourceAlgorithm(AlgorithmIdentifier)` -/
def PSourceAlgorithm : Py.Obj :=
  Rfc8017.AlgorithmIdentifier

/-- rfc8017.py:47 -/
def hashAlgs : Py.Obj :=
  (Py.univ.ObjectIdentifier.call.callArcs [2, 16, 840, 1, 101, 3, 4, 2])

/-- rfc8017.py:48 alias of `rfc4055.id_sha256` -/
def id_sha256 : Py.Obj :=
  Rfc4055.id_sha256

/-- rfc8017.py:49 alias of `rfc4055.id_sha384` -/
def id_sha384 : Py.Obj :=
  Rfc4055.id_sha384

/-- rfc8017.py:50 alias of `rfc4055.id_sha512` -/
def id_sha512 : Py.Obj :=
  Rfc4055.id_sha512

/-- rfc8017.py:51 alias of `rfc4055.id_sha224` -/
def id_sha224 : Py.Obj :=
  Rfc4055.id_sha224

/-- rfc8017.py:52 -/
def id_sha512_224 : Py.Obj :=
  (Rfc8017.hashAlgs.addArcs [5])

/-- rfc8017.py:53 -/
def id_sha512_256 : Py.Obj :=
  (Rfc8017.hashAlgs.addArcs [6])

/-- rfc8017.py:58 -/
def pkcs_1 : Py.Obj :=
  (Py.univ.ObjectIdentifier.call.callArcs [1, 2, 840, 113549, 1, 1])

/-- rfc8017.py:59 alias of `rfc2437.rsaEncryption` -/
def rsaEncryption : Py.Obj :=
  Rfc2437.rsaEncryption

/-- rfc8017.py:60 alias of `rfc2437.id_RSAES_OAEP` -/
def id_RSAES_OAEP : Py.Obj :=
  Rfc2437.id_RSAES_OAEP

/-- rfc8017.py:61 alias of `rfc2437.id_pSpecified` -/
def id_pSpecified : Py.Obj :=
  Rfc2437.id_pSpecified

/-- rfc8017.py:62 alias of `rfc4055.id_RSASSA_PSS` -/
def id_RSASSA_PSS : Py.Obj :=
  Rfc4055.id_RSASSA_PSS

/-- rfc8017.py:63 alias of `rfc2437.md2WithRSAEncryption` -/
def md2WithRSAEncryption : Py.Obj :=
  Rfc2437.md2WithRSAEncryption

/-- rfc8017.py:64 alias of `rfc2437.md5WithRSAEncryption` -/
def md5WithRSAEncryption : Py.Obj :=
  Rfc2437.md5WithRSAEncryption

/-- rfc8017.py:65 alias of `rfc2437.sha1WithRSAEncryption` -/
def sha1WithRSAEncryption : Py.Obj :=
  Rfc2437.sha1WithRSAEncryption

/-- rfc8017.py:66 alias of `rfc4055.sha224WithRSAEncryption` -/
def sha224WithRSAEncryption : Py.Obj :=
  Rfc4055.sha224WithRSAEncryption

/-- rfc8017.py:67 alias of `rfc4055.sha256WithRSAEncryption` -/
def sha256WithRSAEncryption : Py.Obj :=
  Rfc4055.sha256WithRSAEncryption

/-- rfc8017.py:68 alias of `rfc4055.sha384WithRSAEncryption` -/
def sha384WithRSAEncryption : Py.Obj :=
  Rfc4055.sha384WithRSAEncryption

/-- rfc8017.py:69 alias of `rfc4055.sha512WithRSAEncryption` -/
def sha512WithRSAEncryption : Py.Obj :=
  Rfc4055.sha512WithRSAEncryption

/-- rfc8017.py:70 -/
def sha512_224WithRSAEncryption : Py.Obj :=
  (Rfc8017.pkcs_1.addArcs [15])

/-- rfc8017.py:71 -/
def sha512_256WithRSAEncryption : Py.Obj :=
  (Rfc8017.pkcs_1.addArcs [16])

/-- rfc8017.py:72 alias of `rfc2437.id_sha1` -/
def id_sha1 : Py.Obj :=
  Rfc2437.id_sha1

/-- rfc8017.py:73 -/
def id_md2 : Py.Obj :=
  (Py.univ.ObjectIdentifier.call.callArcs [1, 2, 840, 113549, 2, 2])

/-- rfc8017.py:74 -/
def id_md5 : Py.Obj :=
  (Py.univ.ObjectIdentifier.call.callArcs [1, 2, 840, 113549, 2, 5])

/-- rfc8017.py:75 alias of `rfc2437.id_mgf1` -/
def id_mgf1 : Py.Obj :=
  Rfc2437.id_mgf1

/-- rfc8017.py:80 alias of `rfc4055.sha1Identifier` -/
def sha1 : Py.Proto :=
  Rfc4055.sha1Identifier

/-- rfc8017.py:81 -/
def SHA1Parameters : Py.Obj :=
  (Py.univ.Null.call.callStr "")

/-- rfc8017.py:83 alias of `rfc4055.mgf1SHA1Identifier` -/
def mgf1SHA1 : Py.Proto :=
  Rfc4055.mgf1SHA1Identifier

/-- rfc8017.py:85-86 `class EncodingParameters(univ.OctetString)` -/
def EncodingParameters : Py.Obj :=
  Py.univ.OctetString.setSubtypeSpec (Py.ValueSizeConstraint (.fin 0) Rfc8017.MAX)

/-- rfc8017.py:88 alias of `rfc4055.pSpecifiedEmptyIdentifier` -/
def pSpecifiedEmpty : Py.Proto :=
  Rfc4055.pSpecifiedEmptyIdentifier

/-- rfc8017.py:90 -/
def emptyString : Py.Obj :=
  (Rfc8017.EncodingParameters.call.callStr "")

/-- rfc8017.py:95-99 `class Version(univ.Integer)` -/
def Version : Py.Obj :=
  Py.univ.Integer.setNamedValues (Py.NamedValues [("two-prime", 0), ("multi", 1)])

/-- rfc8017.py:101-104 `class TrailerField(univ.Integer)` -/
def TrailerField : Py.Obj :=
  Py.univ.Integer.setNamedValues (Py.NamedValues [("trailerFieldBC", 1)])

/-- rfc8017.py:106 alias of `rfc2437.RSAPublicKey` -/
def RSAPublicKey : Py.Obj :=
  Rfc2437.RSAPublicKey

/-- rfc8017.py:108 alias of `rfc3447.OtherPrimeInfo` -/
def OtherPrimeInfo : Py.Obj :=
  Rfc3447.OtherPrimeInfo

/-- rfc8017.py:109 alias of `rfc3447.OtherPrimeInfos` -/
def OtherPrimeInfos : Py.Obj :=
  Rfc3447.OtherPrimeInfos

/-- rfc8017.py:110 alias of `rfc3447.RSAPrivateKey` -/
def RSAPrivateKey : Py.Obj :=
  Rfc3447.RSAPrivateKey

/-- rfc8017.py:112 alias of `rfc4055.RSAES_OAEP_params` -/
def RSAES_OAEP_params : Py.Obj :=
  Rfc4055.RSAES_OAEP_params

/-- rfc8017.py:113 alias of `rfc4055.rSAES_OAEP_Default_Identifier` -/
def rSAES_OAEP_Default_Identifier : Py.Proto :=
  Rfc4055.rSAES_OAEP_Default_Identifier

/-- rfc8017.py:115 alias of `rfc4055.RSASSA_PSS_params` -/
def RSASSA_PSS_params : Py.Obj :=
  Rfc4055.RSASSA_PSS_params

/-- rfc8017.py:116 alias of `rfc4055.rSASSA_PSS_Default_Identifier` -/
def rSASSA_PSS_Default_Identifier : Py.Proto :=
  Rfc4055.rSASSA_PSS_Default_Identifier

/-- rfc8017.py:121-125 `class DigestInfo(univ.Sequence)` -/
def DigestInfo : Py.Obj :=
  Py.univ.Sequence.setComponentType (Py.NamedTypes [
    Py.NamedType "digestAlgorithm" Rfc8017.DigestAlgorithm.call,
    Py.NamedType "digest" Py.univ.OctetString.call])

/-- rfc8017.py:130-151 -/
def _algorithmIdentifierMapUpdate : Py.Entries :=
  [(Rfc8017.id_sha1.value, Py.univ.Null.call.ty),
    (Rfc8017.id_sha224.value, Py.univ.Null.call.ty),
    (Rfc8017.id_sha256.value, Py.univ.Null.call.ty),
    (Rfc8017.id_sha384.value, Py.univ.Null.call.ty),
    (Rfc8017.id_sha512.value, Py.univ.Null.call.ty),
    (Rfc8017.id_sha512_224.value, Py.univ.Null.call.ty),
    (Rfc8017.id_sha512_256.value, Py.univ.Null.call.ty),
    (Rfc8017.id_mgf1.value, Rfc8017.AlgorithmIdentifier.call.ty),
    (Rfc8017.id_pSpecified.value, Py.univ.OctetString.call.ty),
    (Rfc8017.id_RSAES_OAEP.value, Rfc8017.RSAES_OAEP_params.call.ty),
    (Rfc8017.id_RSASSA_PSS.value, Rfc8017.RSASSA_PSS_params.call.ty),
    (Rfc8017.md2WithRSAEncryption.value, Py.univ.Null.call.ty),
    (Rfc8017.md5WithRSAEncryption.value, Py.univ.Null.call.ty),
    (Rfc8017.sha1WithRSAEncryption.value, Py.univ.Null.call.ty),
    (Rfc8017.sha224WithRSAEncryption.value, Py.univ.Null.call.ty),
    (Rfc8017.sha256WithRSAEncryption.value, Py.univ.Null.call.ty),
    (Rfc8017.sha384WithRSAEncryption.value, Py.univ.Null.call.ty),
    (Rfc8017.sha512WithRSAEncryption.value, Py.univ.Null.call.ty),
    (Rfc8017.sha512_224WithRSAEncryption.value, Py.univ.Null.call.ty),
    (Rfc8017.sha512_256WithRSAEncryption.value, Py.univ.Null.call.ty)]

/-- Modules of this package imported by rfc8017.py, in textual order. -/
def imports : List Py.Ident :=
  [(Py.mod 9 "rfc2437"), (Py.mod 40 "rfc3447"), (Py.mod 42 "rfc4055"), (Py.mod 15 "rfc5280")]

/-- Dictionary operations executed when rfc8017.py is imported, in program order. -/
def effects : List Py.Effect :=
  [.create (Py.map 134 "rfc8017._algorithmIdentifierMapUpdate") Rfc8017._algorithmIdentifierMapUpdate /- rfc8017.py:130-151 -/,
   .update (Py.map 3 "rfc5280.algorithmIdentifierMap") Rfc8017._algorithmIdentifierMapUpdate /- rfc8017.py:153 -/]

/-- ASN.1 types rfc8017.py binds at module level (final version of each name), plus nested classes. -/
def classes : List (String × Py.Obj) :=
  [("rfc8017.AlgorithmIdentifier", Rfc8017.AlgorithmIdentifier),
   ("rfc8017.DigestAlgorithm", Rfc8017.DigestAlgorithm),
   ("rfc8017.HashAlgorithm", Rfc8017.HashAlgorithm),
   ("rfc8017.MaskGenAlgorithm", Rfc8017.MaskGenAlgorithm),
   ("rfc8017.PSourceAlgorithm", Rfc8017.PSourceAlgorithm),
   ("rfc8017.EncodingParameters", Rfc8017.EncodingParameters),
   ("rfc8017.Version", Rfc8017.Version),
   ("rfc8017.TrailerField", Rfc8017.TrailerField),
   ("rfc8017.RSAPublicKey", Rfc8017.RSAPublicKey),
   ("rfc8017.OtherPrimeInfo", Rfc8017.OtherPrimeInfo),
   ("rfc8017.OtherPrimeInfos", Rfc8017.OtherPrimeInfos),
   ("rfc8017.RSAPrivateKey", Rfc8017.RSAPrivateKey),
   ("rfc8017.RSAES_OAEP_params", Rfc8017.RSAES_OAEP_params),
   ("rfc8017.RSASSA_PSS_params", Rfc8017.RSASSA_PSS_params),
   ("rfc8017.DigestInfo", Rfc8017.DigestInfo)]

/-- pyasn1 instances rfc8017.py binds at module level. -/
def objects : List (String × Py.Obj) :=
  [("rfc8017.hashAlgs", Rfc8017.hashAlgs),
   ("rfc8017.id_sha256", Rfc8017.id_sha256),
   ("rfc8017.id_sha384", Rfc8017.id_sha384),
   ("rfc8017.id_sha512", Rfc8017.id_sha512),
   ("rfc8017.id_sha224", Rfc8017.id_sha224),
   ("rfc8017.id_sha512_224", Rfc8017.id_sha512_224),
   ("rfc8017.id_sha512_256", Rfc8017.id_sha512_256),
   ("rfc8017.pkcs_1", Rfc8017.pkcs_1),
   ("rfc8017.rsaEncryption", Rfc8017.rsaEncryption),
   ("rfc8017.id_RSAES_OAEP", Rfc8017.id_RSAES_OAEP),
   ("rfc8017.id_pSpecified", Rfc8017.id_pSpecified),
   ("rfc8017.id_RSASSA_PSS", Rfc8017.id_RSASSA_PSS),
   ("rfc8017.md2WithRSAEncryption", Rfc8017.md2WithRSAEncryption),
   ("rfc8017.md5WithRSAEncryption", Rfc8017.md5WithRSAEncryption),
   ("rfc8017.sha1WithRSAEncryption", Rfc8017.sha1WithRSAEncryption),
   ("rfc8017.sha224WithRSAEncryption", Rfc8017.sha224WithRSAEncryption),
   ("rfc8017.sha256WithRSAEncryption", Rfc8017.sha256WithRSAEncryption),
   ("rfc8017.sha384WithRSAEncryption", Rfc8017.sha384WithRSAEncryption),
   ("rfc8017.sha512WithRSAEncryption", Rfc8017.sha512WithRSAEncryption),
   ("rfc8017.sha512_224WithRSAEncryption", Rfc8017.sha512_224WithRSAEncryption),
   ("rfc8017.sha512_256WithRSAEncryption", Rfc8017.sha512_256WithRSAEncryption),
   ("rfc8017.id_sha1", Rfc8017.id_sha1),
   ("rfc8017.id_md2", Rfc8017.id_md2),
   ("rfc8017.id_md5", Rfc8017.id_md5),
   ("rfc8017.id_mgf1", Rfc8017.id_mgf1),
   ("rfc8017.SHA1Parameters", Rfc8017.SHA1Parameters),
   ("rfc8017.emptyString", Rfc8017.emptyString)]

/-- pyasn1 instances rfc8017.py fills in by item assignment. -/
def protos : List (String × Py.Proto) :=
  [("rfc8017.sha1", Rfc8017.sha1),
   ("rfc8017.mgf1SHA1", Rfc8017.mgf1SHA1),
   ("rfc8017.pSpecifiedEmpty", Rfc8017.pSpecifiedEmpty),
   ("rfc8017.rSAES_OAEP_Default_Identifier", Rfc8017.rSAES_OAEP_Default_Identifier),
   ("rfc8017.rSASSA_PSS_Default_Identifier", Rfc8017.rSASSA_PSS_Default_Identifier)]

/-- Every place of rfc8017.py that instantiates a class of the package: where, the class as it is
at that point, and the class as it is when the import has finished. -/
def snapshots : List Py.Snapshot :=
  [⟨"rfc8017.py:90", Rfc8017.EncodingParameters, Rfc8017.EncodingParameters⟩,
   ⟨"rfc8017.py:123", Rfc8017.DigestAlgorithm, Rfc8017.DigestAlgorithm⟩,
   ⟨"rfc8017.py:138", Rfc8017.AlgorithmIdentifier, Rfc8017.AlgorithmIdentifier⟩,
   ⟨"rfc8017.py:140", Rfc8017.RSAES_OAEP_params, Rfc8017.RSAES_OAEP_params⟩,
   ⟨"rfc8017.py:141", Rfc8017.RSASSA_PSS_params, Rfc8017.RSASSA_PSS_params⟩]

/-- Functions rfc8017.py defines. -/
def builders : List (String × (List Py.OidArg → Py.Obj)) :=
  []

def asModule : Py.Module :=
  { id := (Py.mod 110 "rfc8017"), imports := imports, effects := effects, classes := classes, objects := objects, protos := protos, snapshots := snapshots, builders := builders }

end Rfc8017
end Verif
