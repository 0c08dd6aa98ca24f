import Verif.Py.Obj
import Verif.Gen.Rfc5280

/-! Transcription of /repo/pyasn1_modules/rfc5990.py (generated by tools/gen.py). -/

namespace Verif
namespace Rfc5990

/-- rfc5990.py:21 -/
def MAX : Py.Bound :=
  .inf

/-- rfc5990.py:23-30 `def _OID(*components)` -/
def _OID (components : List Py.OidArg) : Py.Obj :=
  match Py.oidLoop [] components with
  | some output => Py.univ.ObjectIdentifier.call.callArcs output
  | none => .fail "OID without value"

/-- rfc5990.py:35 alias of `rfc5280.AlgorithmIdentifier` -/
def AlgorithmIdentifier : Py.Obj :=
  Rfc5280.AlgorithmIdentifier

/-- rfc5990.py:40-41 `class NullParms(univ.Null)` -/
def NullParms : Py.Obj :=
  Py.univ.Null

/-- rfc5990.py:46 -/
def is18033_2 : Py.Obj :=
  (Rfc5990._OID [.num 1, .num 0, .num 18033, .num 2])

/-- rfc5990.py:48 -/
def nistAlgorithm : Py.Obj :=
  (Rfc5990._OID [.num 2, .num 16, .num 840, .num 1, .num 101, .num 3, .num 4])

/-- rfc5990.py:50 -/
def pkcs_1 : Py.Obj :=
  (Rfc5990._OID [.num 1, .num 2, .num 840, .num 113549, .num 1, .num 1])

/-- rfc5990.py:52 -/
def x9_44 : Py.Obj :=
  (Rfc5990._OID [.num 1, .num 3, .num 133, .num 16, .num 840, .num 9, .num 44])

/-- rfc5990.py:54 -/
def x9_44_components : Py.Obj :=
  (Rfc5990._OID [.oid Rfc5990.x9_44, .num 1])

/-- rfc5990.py:59-60 `class Camellia_KeyWrappingScheme(AlgorithmIdentifier)` -/
def Camellia_KeyWrappingScheme : Py.Obj :=
  Rfc5990.AlgorithmIdentifier

/-- rfc5990.py:62-63 `class DataEncapsulationMechanism(AlgorithmIdentifier)` -/
def DataEncapsulationMechanism : Py.Obj :=
  Rfc5990.AlgorithmIdentifier

/-- rfc5990.py:65-66 `class KDF2_HashFunction(AlgorithmIdentifier)` -/
def KDF2_HashFunction : Py.Obj :=
  Rfc5990.AlgorithmIdentifier

/-- rfc5990.py:68-69 `class KDF3_HashFunction(AlgorithmIdentifier)` -/
def KDF3_HashFunction : Py.Obj :=
  Rfc5990.AlgorithmIdentifier

/-- rfc5990.py:71-72 `class KeyDerivationFunction(AlgorithmIdentifier)` -/
def KeyDerivationFunction : Py.Obj :=
  Rfc5990.AlgorithmIdentifier

/-- rfc5990.py:74-75 `class KeyEncapsulationMechanism(AlgorithmIdentifier)` -/
def KeyEncapsulationMechanism : Py.Obj :=
  Rfc5990.AlgorithmIdentifier

/-- rfc5990.py:77-78 `class X9_SymmetricKeyWrappingScheme(AlgorithmIdentifier)` -/
def X9_SymmetricKeyWrappingScheme : Py.Obj :=
  Rfc5990.AlgorithmIdentifier

/-- rfc5990.py:83 -/
def id_rsa_kem : Py.Obj :=
  (Rfc5990._OID [.num 1, .num 2, .num 840, .num 113549, .num 1, .num 9, .num 16, .num 3, .num 14])

/-- rfc5990.py:86-87 `class GenericHybridParameters(univ.Sequence)` -/
def GenericHybridParameters__0 : Py.Obj :=
  Py.univ.Sequence

/-- rfc5990.py:89-92 `GenericHybridParameters.componentType = ...` -/
def GenericHybridParameters : Py.Obj :=
  Rfc5990.GenericHybridParameters__0.setComponentType (Py.NamedTypes [
    Py.NamedType "kem" Rfc5990.KeyEncapsulationMechanism.call,
    Py.NamedType "dem" Rfc5990.DataEncapsulationMechanism.call])

/-- rfc5990.py:95 -/
def rsa_kem__0 : Py.Proto :=
  { obj := Rfc5990.AlgorithmIdentifier.call }

/-- rfc5990.py:96 `rsa_kem['algorithm'] = ...` -/
def rsa_kem__1 : Py.Proto :=
  Rfc5990.rsa_kem__0.set "algorithm" (.obj Rfc5990.id_rsa_kem)

/-- rfc5990.py:97 `rsa_kem['parameters'] = ...` -/
def rsa_kem : Py.Proto :=
  Rfc5990.rsa_kem__1.set "parameters" (.obj Rfc5990.GenericHybridParameters.call)

/-- rfc5990.py:102 -/
def id_kem_rsa : Py.Obj :=
  (Rfc5990._OID [.oid Rfc5990.is18033_2, .num 2, .num 4])

/-- rfc5990.py:105-106 `class KeyLength(univ.Integer)` -/
def KeyLength__0 : Py.Obj :=
  Py.univ.Integer

/-- rfc5990.py:108 `KeyLength.subtypeSpec = ...` -/
def KeyLength : Py.Obj :=
  Rfc5990.KeyLength__0.setSubtypeSpec (Py.ValueRangeConstraint (.fin 1) Rfc5990.MAX)

/-- rfc5990.py:111-112 `class RsaKemParameters(univ.Sequence)` -/
def RsaKemParameters__0 : Py.Obj :=
  Py.univ.Sequence

/-- rfc5990.py:114-117 `RsaKemParameters.componentType = ...` -/
def RsaKemParameters : Py.Obj :=
  Rfc5990.RsaKemParameters__0.setComponentType (Py.NamedTypes [
    Py.NamedType "keyDerivationFunction" Rfc5990.KeyDerivationFunction.call,
    Py.NamedType "keyLength" Rfc5990.KeyLength.call])

/-- rfc5990.py:120 -/
def kem_rsa__0 : Py.Proto :=
  { obj := Rfc5990.AlgorithmIdentifier.call }

/-- rfc5990.py:121 `kem_rsa['algorithm'] = ...` -/
def kem_rsa__1 : Py.Proto :=
  Rfc5990.kem_rsa__0.set "algorithm" (.obj Rfc5990.id_kem_rsa)

/-- rfc5990.py:122 `kem_rsa['parameters'] = ...` -/
def kem_rsa : Py.Proto :=
  Rfc5990.kem_rsa__1.set "parameters" (.obj Rfc5990.RsaKemParameters.call)

/-- rfc5990.py:127 -/
def id_kdf_kdf2 : Py.Obj :=
  (Rfc5990._OID [.oid Rfc5990.x9_44_components, .num 1])

/-- rfc5990.py:129 -/
def id_kdf_kdf3 : Py.Obj :=
  (Rfc5990._OID [.oid Rfc5990.x9_44_components, .num 2])

/-- rfc5990.py:132 -/
def kdf2__0 : Py.Proto :=
  { obj := Rfc5990.AlgorithmIdentifier.call }

/-- rfc5990.py:133 `kdf2['algorithm'] = ...` -/
def kdf2__1 : Py.Proto :=
  Rfc5990.kdf2__0.set "algorithm" (.obj Rfc5990.id_kdf_kdf2)

/-- rfc5990.py:134 `kdf2['parameters'] = ...` -/
def kdf2 : Py.Proto :=
  Rfc5990.kdf2__1.set "parameters" (.obj Rfc5990.KDF2_HashFunction.call)

/-- rfc5990.py:136 -/
def kdf3__0 : Py.Proto :=
  { obj := Rfc5990.AlgorithmIdentifier.call }

/-- rfc5990.py:137 `kdf3['algorithm'] = ...` -/
def kdf3__1 : Py.Proto :=
  Rfc5990.kdf3__0.set "algorithm" (.obj Rfc5990.id_kdf_kdf3)

/-- rfc5990.py:138 `kdf3['parameters'] = ...` -/
def kdf3 : Py.Proto :=
  Rfc5990.kdf3__1.set "parameters" (.obj Rfc5990.KDF3_HashFunction.call)

/-- rfc5990.py:143 -/
def id_sha1 : Py.Obj :=
  (Rfc5990._OID [.num 1, .num 3, .num 14, .num 3, .num 2, .num 26])

/-- rfc5990.py:145 -/
def id_sha224 : Py.Obj :=
  (Rfc5990._OID [.num 2, .num 16, .num 840, .num 1, .num 101, .num 3, .num 4, .num 2, .num 4])

/-- rfc5990.py:147 -/
def id_sha256 : Py.Obj :=
  (Rfc5990._OID [.num 2, .num 16, .num 840, .num 1, .num 101, .num 3, .num 4, .num 2, .num 1])

/-- rfc5990.py:149 -/
def id_sha384 : Py.Obj :=
  (Rfc5990._OID [.num 2, .num 16, .num 840, .num 1, .num 101, .num 3, .num 4, .num 2, .num 2])

/-- rfc5990.py:151 -/
def id_sha512 : Py.Obj :=
  (Rfc5990._OID [.num 2, .num 16, .num 840, .num 1, .num 101, .num 3, .num 4, .num 2, .num 3])

/-- rfc5990.py:154 -/
def sha1__0 : Py.Proto :=
  { obj := Rfc5990.AlgorithmIdentifier.call }

/-- rfc5990.py:155 `sha1['algorithm'] = ...` -/
def sha1__1 : Py.Proto :=
  Rfc5990.sha1__0.set "algorithm" (.obj Rfc5990.id_sha1)

/-- rfc5990.py:156 `sha1['parameters'] = ...` -/
def sha1 : Py.Proto :=
  Rfc5990.sha1__1.set "parameters" (.obj (Py.univ.Null.call.callStr ""))

/-- rfc5990.py:158 -/
def sha224__0 : Py.Proto :=
  { obj := Rfc5990.AlgorithmIdentifier.call }

/-- rfc5990.py:159 `sha224['algorithm'] = ...` -/
def sha224__1 : Py.Proto :=
  Rfc5990.sha224__0.set "algorithm" (.obj Rfc5990.id_sha224)

/-- rfc5990.py:160 `sha224['parameters'] = ...` -/
def sha224 : Py.Proto :=
  Rfc5990.sha224__1.set "parameters" (.obj (Py.univ.Null.call.callStr ""))

/-- rfc5990.py:162 -/
def sha256__0 : Py.Proto :=
  { obj := Rfc5990.AlgorithmIdentifier.call }

/-- rfc5990.py:163 `sha256['algorithm'] = ...` -/
def sha256__1 : Py.Proto :=
  Rfc5990.sha256__0.set "algorithm" (.obj Rfc5990.id_sha256)

/-- rfc5990.py:164 `sha256['parameters'] = ...` -/
def sha256 : Py.Proto :=
  Rfc5990.sha256__1.set "parameters" (.obj (Py.univ.Null.call.callStr ""))

/-- rfc5990.py:166 -/
def sha384__0 : Py.Proto :=
  { obj := Rfc5990.AlgorithmIdentifier.call }

/-- rfc5990.py:167 `sha384['algorithm'] = ...` -/
def sha384__1 : Py.Proto :=
  Rfc5990.sha384__0.set "algorithm" (.obj Rfc5990.id_sha384)

/-- rfc5990.py:168 `sha384['parameters'] = ...` -/
def sha384 : Py.Proto :=
  Rfc5990.sha384__1.set "parameters" (.obj (Py.univ.Null.call.callStr ""))

/-- rfc5990.py:170 -/
def sha512__0 : Py.Proto :=
  { obj := Rfc5990.AlgorithmIdentifier.call }

/-- rfc5990.py:171 `sha512['algorithm'] = ...` -/
def sha512__1 : Py.Proto :=
  Rfc5990.sha512__0.set "algorithm" (.obj Rfc5990.id_sha512)

/-- rfc5990.py:172 `sha512['parameters'] = ...` -/
def sha512 : Py.Proto :=
  Rfc5990.sha512__1.set "parameters" (.obj (Py.univ.Null.call.callStr ""))

/-- rfc5990.py:177 -/
def id_aes128_Wrap : Py.Obj :=
  (Rfc5990._OID [.oid Rfc5990.nistAlgorithm, .num 1, .num 5])

/-- rfc5990.py:179 -/
def id_aes192_Wrap : Py.Obj :=
  (Rfc5990._OID [.oid Rfc5990.nistAlgorithm, .num 1, .num 25])

/-- rfc5990.py:181 -/
def id_aes256_Wrap : Py.Obj :=
  (Rfc5990._OID [.oid Rfc5990.nistAlgorithm, .num 1, .num 45])

/-- rfc5990.py:183 -/
def id_alg_CMS3DESwrap : Py.Obj :=
  (Rfc5990._OID [.num 1, .num 2, .num 840, .num 113549, .num 1, .num 9, .num 16, .num 3, .num 6])

/-- rfc5990.py:185 -/
def id_camellia128_Wrap : Py.Obj :=
  (Rfc5990._OID [.num 1, .num 2, .num 392, .num 200011, .num 61, .num 1, .num 1, .num 3, .num 2])

/-- rfc5990.py:187 -/
def id_camellia192_Wrap : Py.Obj :=
  (Rfc5990._OID [.num 1, .num 2, .num 392, .num 200011, .num 61, .num 1, .num 1, .num 3, .num 3])

/-- rfc5990.py:189 -/
def id_camellia256_Wrap : Py.Obj :=
  (Rfc5990._OID [.num 1, .num 2, .num 392, .num 200011, .num 61, .num 1, .num 1, .num 3, .num 4])

/-- rfc5990.py:192 -/
def aes128_Wrap__0 : Py.Proto :=
  { obj := Rfc5990.AlgorithmIdentifier.call }

/-- rfc5990.py:193 `aes128_Wrap['algorithm'] = ...` -/
def aes128_Wrap : Py.Proto :=
  Rfc5990.aes128_Wrap__0.set "algorithm" (.obj Rfc5990.id_aes128_Wrap)

/-- rfc5990.py:196 -/
def aes192_Wrap__0 : Py.Proto :=
  { obj := Rfc5990.AlgorithmIdentifier.call }

/-- rfc5990.py:197 `aes192_Wrap['algorithm'] = ...` -/
def aes192_Wrap : Py.Proto :=
  Rfc5990.aes192_Wrap__0.set "algorithm" (.obj Rfc5990.id_aes128_Wrap)

/-- rfc5990.py:200 -/
def aes256_Wrap__0 : Py.Proto :=
  { obj := Rfc5990.AlgorithmIdentifier.call }

/-- rfc5990.py:201 `aes256_Wrap['algorithm'] = ...` -/
def aes256_Wrap : Py.Proto :=
  Rfc5990.aes256_Wrap__0.set "algorithm" (.obj Rfc5990.id_sha256)

/-- rfc5990.py:204 -/
def tdes_Wrap__0 : Py.Proto :=
  { obj := Rfc5990.AlgorithmIdentifier.call }

/-- rfc5990.py:205 `tdes_Wrap['algorithm'] = ...` -/
def tdes_Wrap__1 : Py.Proto :=
  Rfc5990.tdes_Wrap__0.set "algorithm" (.obj Rfc5990.id_alg_CMS3DESwrap)

/-- rfc5990.py:206 `tdes_Wrap['parameters'] = ...` -/
def tdes_Wrap : Py.Proto :=
  Rfc5990.tdes_Wrap__1.set "parameters" (.obj (Py.univ.Null.call.callStr ""))

/-- rfc5990.py:208 -/
def camellia128_Wrap__0 : Py.Proto :=
  { obj := Rfc5990.AlgorithmIdentifier.call }

/-- rfc5990.py:209 `camellia128_Wrap['algorithm'] = ...` -/
def camellia128_Wrap : Py.Proto :=
  Rfc5990.camellia128_Wrap__0.set "algorithm" (.obj Rfc5990.id_camellia128_Wrap)

/-- rfc5990.py:212 -/
def camellia192_Wrap__0 : Py.Proto :=
  { obj := Rfc5990.AlgorithmIdentifier.call }

/-- rfc5990.py:213 `camellia192_Wrap['algorithm'] = ...` -/
def camellia192_Wrap : Py.Proto :=
  Rfc5990.camellia192_Wrap__0.set "algorithm" (.obj Rfc5990.id_camellia192_Wrap)

/-- rfc5990.py:216 -/
def camellia256_Wrap__0 : Py.Proto :=
  { obj := Rfc5990.AlgorithmIdentifier.call }

/-- rfc5990.py:217 `camellia256_Wrap['algorithm'] = ...` -/
def camellia256_Wrap : Py.Proto :=
  Rfc5990.camellia256_Wrap__0.set "algorithm" (.obj Rfc5990.id_camellia256_Wrap)

/-- rfc5990.py:224-235 -/
def _algorithmIdentifierMapUpdate : Py.Entries :=
  [(Rfc5990.id_rsa_kem.value, Rfc5990.GenericHybridParameters.call.ty),
    (Rfc5990.id_kem_rsa.value, Rfc5990.RsaKemParameters.call.ty),
    (Rfc5990.id_kdf_kdf2.value, Rfc5990.KDF2_HashFunction.call.ty),
    (Rfc5990.id_kdf_kdf3.value, Rfc5990.KDF3_HashFunction.call.ty),
    (Rfc5990.id_sha1.value, Py.univ.Null.call.ty),
    (Rfc5990.id_sha224.value, Py.univ.Null.call.ty),
    (Rfc5990.id_sha256.value, Py.univ.Null.call.ty),
    (Rfc5990.id_sha384.value, Py.univ.Null.call.ty),
    (Rfc5990.id_sha512.value, Py.univ.Null.call.ty),
    (Rfc5990.id_alg_CMS3DESwrap.value, Py.univ.Null.call.ty)]

/-- Modules of this package imported by rfc5990.py, in textual order. -/
def imports : List Py.Ident :=
  [(Py.mod 15 "rfc5280")]

/-- Dictionary operations executed when rfc5990.py is imported, in program order. -/
def effects : List Py.Effect :=
  [.create (Py.map 101 "rfc5990._algorithmIdentifierMapUpdate") Rfc5990._algorithmIdentifierMapUpdate /- rfc5990.py:224-235 -/,
   .update (Py.map 3 "rfc5280.algorithmIdentifierMap") Rfc5990._algorithmIdentifierMapUpdate /- rfc5990.py:237 -/]

/-- ASN.1 types rfc5990.py binds at module level (final version of each name), plus nested classes. -/
def classes : List (String × Py.Obj) :=
  [("rfc5990.AlgorithmIdentifier", Rfc5990.AlgorithmIdentifier),
   ("rfc5990.NullParms", Rfc5990.NullParms),
   ("rfc5990.Camellia_KeyWrappingScheme", Rfc5990.Camellia_KeyWrappingScheme),
   ("rfc5990.DataEncapsulationMechanism", Rfc5990.DataEncapsulationMechanism),
   ("rfc5990.KDF2_HashFunction", Rfc5990.KDF2_HashFunction),
   ("rfc5990.KDF3_HashFunction", Rfc5990.KDF3_HashFunction),
   ("rfc5990.KeyDerivationFunction", Rfc5990.KeyDerivationFunction),
   ("rfc5990.KeyEncapsulationMechanism", Rfc5990.KeyEncapsulationMechanism),
   ("rfc5990.X9_SymmetricKeyWrappingScheme", Rfc5990.X9_SymmetricKeyWrappingScheme),
   ("rfc5990.GenericHybridParameters", Rfc5990.GenericHybridParameters),
   ("rfc5990.KeyLength", Rfc5990.KeyLength),
   ("rfc5990.RsaKemParameters", Rfc5990.RsaKemParameters)]

/-- pyasn1 instances rfc5990.py binds at module level. -/
def objects : List (String × Py.Obj) :=
  [("rfc5990.is18033_2", Rfc5990.is18033_2),
   ("rfc5990.nistAlgorithm", Rfc5990.nistAlgorithm),
   ("rfc5990.pkcs_1", Rfc5990.pkcs_1),
   ("rfc5990.x9_44", Rfc5990.x9_44),
   ("rfc5990.x9_44_components", Rfc5990.x9_44_components),
   ("rfc5990.id_rsa_kem", Rfc5990.id_rsa_kem),
   ("rfc5990.id_kem_rsa", Rfc5990.id_kem_rsa),
   ("rfc5990.id_kdf_kdf2", Rfc5990.id_kdf_kdf2),
   ("rfc5990.id_kdf_kdf3", Rfc5990.id_kdf_kdf3),
   ("rfc5990.id_sha1", Rfc5990.id_sha1),
   ("rfc5990.id_sha224", Rfc5990.id_sha224),
   ("rfc5990.id_sha256", Rfc5990.id_sha256),
   ("rfc5990.id_sha384", Rfc5990.id_sha384),
   ("rfc5990.id_sha512", Rfc5990.id_sha512),
   ("rfc5990.id_aes128_Wrap", Rfc5990.id_aes128_Wrap),
   ("rfc5990.id_aes192_Wrap", Rfc5990.id_aes192_Wrap),
   ("rfc5990.id_aes256_Wrap", Rfc5990.id_aes256_Wrap),
   ("rfc5990.id_alg_CMS3DESwrap", Rfc5990.id_alg_CMS3DESwrap),
   ("rfc5990.id_camellia128_Wrap", Rfc5990.id_camellia128_Wrap),
   ("rfc5990.id_camellia192_Wrap", Rfc5990.id_camellia192_Wrap),
   ("rfc5990.id_camellia256_Wrap", Rfc5990.id_camellia256_Wrap)]

/-- pyasn1 instances rfc5990.py fills in by item assignment. -/
def protos : List (String × Py.Proto) :=
  [("rfc5990.rsa_kem", Rfc5990.rsa_kem),
   ("rfc5990.kem_rsa", Rfc5990.kem_rsa),
   ("rfc5990.kdf2", Rfc5990.kdf2),
   ("rfc5990.kdf3", Rfc5990.kdf3),
   ("rfc5990.sha1", Rfc5990.sha1),
   ("rfc5990.sha224", Rfc5990.sha224),
   ("rfc5990.sha256", Rfc5990.sha256),
   ("rfc5990.sha384", Rfc5990.sha384),
   ("rfc5990.sha512", Rfc5990.sha512),
   ("rfc5990.aes128_Wrap", Rfc5990.aes128_Wrap),
   ("rfc5990.aes192_Wrap", Rfc5990.aes192_Wrap),
   ("rfc5990.aes256_Wrap", Rfc5990.aes256_Wrap),
   ("rfc5990.tdes_Wrap", Rfc5990.tdes_Wrap),
   ("rfc5990.camellia128_Wrap", Rfc5990.camellia128_Wrap),
   ("rfc5990.camellia192_Wrap", Rfc5990.camellia192_Wrap),
   ("rfc5990.camellia256_Wrap", Rfc5990.camellia256_Wrap)]

/-- Every place of rfc5990.py that instantiates a class of the package: where, the class as it is
at that point, and the class as it is when the import has finished. -/
def snapshots : List Py.Snapshot :=
  [⟨"rfc5990.py:90", Rfc5990.KeyEncapsulationMechanism, Rfc5990.KeyEncapsulationMechanism⟩,
   ⟨"rfc5990.py:91", Rfc5990.DataEncapsulationMechanism, Rfc5990.DataEncapsulationMechanism⟩,
   ⟨"rfc5990.py:95", Rfc5990.AlgorithmIdentifier, Rfc5990.AlgorithmIdentifier⟩,
   ⟨"rfc5990.py:97", Rfc5990.GenericHybridParameters, Rfc5990.GenericHybridParameters⟩,
   ⟨"rfc5990.py:115", Rfc5990.KeyDerivationFunction, Rfc5990.KeyDerivationFunction⟩,
   ⟨"rfc5990.py:116", Rfc5990.KeyLength, Rfc5990.KeyLength⟩,
   ⟨"rfc5990.py:120", Rfc5990.AlgorithmIdentifier, Rfc5990.AlgorithmIdentifier⟩,
   ⟨"rfc5990.py:122", Rfc5990.RsaKemParameters, Rfc5990.RsaKemParameters⟩,
   ⟨"rfc5990.py:132", Rfc5990.AlgorithmIdentifier, Rfc5990.AlgorithmIdentifier⟩,
   ⟨"rfc5990.py:134", Rfc5990.KDF2_HashFunction, Rfc5990.KDF2_HashFunction⟩,
   ⟨"rfc5990.py:136", Rfc5990.AlgorithmIdentifier, Rfc5990.AlgorithmIdentifier⟩,
   ⟨"rfc5990.py:138", Rfc5990.KDF3_HashFunction, Rfc5990.KDF3_HashFunction⟩,
   ⟨"rfc5990.py:154", Rfc5990.AlgorithmIdentifier, Rfc5990.AlgorithmIdentifier⟩,
   ⟨"rfc5990.py:158", Rfc5990.AlgorithmIdentifier, Rfc5990.AlgorithmIdentifier⟩,
   ⟨"rfc5990.py:162", Rfc5990.AlgorithmIdentifier, Rfc5990.AlgorithmIdentifier⟩,
   ⟨"rfc5990.py:166", Rfc5990.AlgorithmIdentifier, Rfc5990.AlgorithmIdentifier⟩,
   ⟨"rfc5990.py:170", Rfc5990.AlgorithmIdentifier, Rfc5990.AlgorithmIdentifier⟩,
   ⟨"rfc5990.py:192", Rfc5990.AlgorithmIdentifier, Rfc5990.AlgorithmIdentifier⟩,
   ⟨"rfc5990.py:196", Rfc5990.AlgorithmIdentifier, Rfc5990.AlgorithmIdentifier⟩,
   ⟨"rfc5990.py:200", Rfc5990.AlgorithmIdentifier, Rfc5990.AlgorithmIdentifier⟩,
   ⟨"rfc5990.py:204", Rfc5990.AlgorithmIdentifier, Rfc5990.AlgorithmIdentifier⟩,
   ⟨"rfc5990.py:208", Rfc5990.AlgorithmIdentifier, Rfc5990.AlgorithmIdentifier⟩,
   ⟨"rfc5990.py:212", Rfc5990.AlgorithmIdentifier, Rfc5990.AlgorithmIdentifier⟩,
   ⟨"rfc5990.py:216", Rfc5990.AlgorithmIdentifier, Rfc5990.AlgorithmIdentifier⟩,
   ⟨"rfc5990.py:225", Rfc5990.GenericHybridParameters, Rfc5990.GenericHybridParameters⟩,
   ⟨"rfc5990.py:226", Rfc5990.RsaKemParameters, Rfc5990.RsaKemParameters⟩,
   ⟨"rfc5990.py:227", Rfc5990.KDF2_HashFunction, Rfc5990.KDF2_HashFunction⟩,
   ⟨"rfc5990.py:228", Rfc5990.KDF3_HashFunction, Rfc5990.KDF3_HashFunction⟩]

/-- Functions rfc5990.py defines. -/
def builders : List (String × (List Py.OidArg → Py.Obj)) :=
  [("rfc5990._OID", Rfc5990._OID)]

def asModule : Py.Module :=
  { id := (Py.mod 36 "rfc5990"), imports := imports, effects := effects, classes := classes, objects := objects, protos := protos, snapshots := snapshots, builders := builders }

end Rfc5990
end Verif
