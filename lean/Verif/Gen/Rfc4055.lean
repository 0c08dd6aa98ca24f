import Verif.Py.Obj
import Verif.Gen.Rfc5280

/-! Transcription of /repo/pyasn1_modules/rfc4055.py (generated by tools/gen.py). -/

namespace Verif
namespace Rfc4055

/-- rfc4055.py:24-31 `def _OID(*components)` -/
def _OID (components : List Py.OidArg) : Py.Obj :=
  match Py.oidLoop [] components with
  | some output => Py.univ.ObjectIdentifier.call.callArcs output
  | none => .fail "OID without value"

/-- rfc4055.py:34 -/
def id_sha1 : Py.Obj :=
  (Rfc4055._OID [.num 1, .num 3, .num 14, .num 3, .num 2, .num 26])

/-- rfc4055.py:36 -/
def id_sha256 : Py.Obj :=
  (Rfc4055._OID [.num 2, .num 16, .num 840, .num 1, .num 101, .num 3, .num 4, .num 2, .num 1])

/-- rfc4055.py:38 -/
def id_sha384 : Py.Obj :=
  (Rfc4055._OID [.num 2, .num 16, .num 840, .num 1, .num 101, .num 3, .num 4, .num 2, .num 2])

/-- rfc4055.py:40 -/
def id_sha512 : Py.Obj :=
  (Rfc4055._OID [.num 2, .num 16, .num 840, .num 1, .num 101, .num 3, .num 4, .num 2, .num 3])

/-- rfc4055.py:42 -/
def id_sha224 : Py.Obj :=
  (Rfc4055._OID [.num 2, .num 16, .num 840, .num 1, .num 101, .num 3, .num 4, .num 2, .num 4])

/-- rfc4055.py:44 -/
def rsaEncryption : Py.Obj :=
  (Rfc4055._OID [.num 1, .num 2, .num 840, .num 113549, .num 1, .num 1, .num 1])

/-- rfc4055.py:46 -/
def id_mgf1 : Py.Obj :=
  (Rfc4055._OID [.num 1, .num 2, .num 840, .num 113549, .num 1, .num 1, .num 8])

/-- rfc4055.py:48 -/
def id_RSAES_OAEP : Py.Obj :=
  (Rfc4055._OID [.num 1, .num 2, .num 840, .num 113549, .num 1, .num 1, .num 7])

/-- rfc4055.py:50 -/
def id_pSpecified : Py.Obj :=
  (Rfc4055._OID [.num 1, .num 2, .num 840, .num 113549, .num 1, .num 1, .num 9])

/-- rfc4055.py:52 -/
def id_RSASSA_PSS : Py.Obj :=
  (Rfc4055._OID [.num 1, .num 2, .num 840, .num 113549, .num 1, .num 1, .num 10])

/-- rfc4055.py:54 -/
def sha256WithRSAEncryption : Py.Obj :=
  (Rfc4055._OID [.num 1, .num 2, .num 840, .num 113549, .num 1, .num 1, .num 11])

/-- rfc4055.py:56 -/
def sha384WithRSAEncryption : Py.Obj :=
  (Rfc4055._OID [.num 1, .num 2, .num 840, .num 113549, .num 1, .num 1, .num 12])

/-- rfc4055.py:58 -/
def sha512WithRSAEncryption : Py.Obj :=
  (Rfc4055._OID [.num 1, .num 2, .num 840, .num 113549, .num 1, .num 1, .num 13])

/-- rfc4055.py:60 -/
def sha224WithRSAEncryption : Py.Obj :=
  (Rfc4055._OID [.num 1, .num 2, .num 840, .num 113549, .num 1, .num 1, .num 14])

/-- rfc4055.py:62 -/
def sha1Identifier__0 : Py.Proto :=
  { obj := Rfc5280.AlgorithmIdentifier.call }

/-- rfc4055.py:63 `sha1Identifier['algorithm'] = ...` -/
def sha1Identifier__1 : Py.Proto :=
  Rfc4055.sha1Identifier__0.set "algorithm" (.obj Rfc4055.id_sha1)

/-- rfc4055.py:64 `sha1Identifier['parameters'] = ...` -/
def sha1Identifier : Py.Proto :=
  Rfc4055.sha1Identifier__1.set "parameters" (.obj (Py.univ.Null.call.callStr ""))

/-- rfc4055.py:66 -/
def sha224Identifier__0 : Py.Proto :=
  { obj := Rfc5280.AlgorithmIdentifier.call }

/-- rfc4055.py:67 `sha224Identifier['algorithm'] = ...` -/
def sha224Identifier__1 : Py.Proto :=
  Rfc4055.sha224Identifier__0.set "algorithm" (.obj Rfc4055.id_sha224)

/-- rfc4055.py:68 `sha224Identifier['parameters'] = ...` -/
def sha224Identifier : Py.Proto :=
  Rfc4055.sha224Identifier__1.set "parameters" (.obj (Py.univ.Null.call.callStr ""))

/-- rfc4055.py:70 -/
def sha256Identifier__0 : Py.Proto :=
  { obj := Rfc5280.AlgorithmIdentifier.call }

/-- rfc4055.py:71 `sha256Identifier['algorithm'] = ...` -/
def sha256Identifier__1 : Py.Proto :=
  Rfc4055.sha256Identifier__0.set "algorithm" (.obj Rfc4055.id_sha256)

/-- rfc4055.py:72 `sha256Identifier['parameters'] = ...` -/
def sha256Identifier : Py.Proto :=
  Rfc4055.sha256Identifier__1.set "parameters" (.obj (Py.univ.Null.call.callStr ""))

/-- rfc4055.py:74 -/
def sha384Identifier__0 : Py.Proto :=
  { obj := Rfc5280.AlgorithmIdentifier.call }

/-- rfc4055.py:75 `sha384Identifier['algorithm'] = ...` -/
def sha384Identifier__1 : Py.Proto :=
  Rfc4055.sha384Identifier__0.set "algorithm" (.obj Rfc4055.id_sha384)

/-- rfc4055.py:76 `sha384Identifier['parameters'] = ...` -/
def sha384Identifier : Py.Proto :=
  Rfc4055.sha384Identifier__1.set "parameters" (.obj (Py.univ.Null.call.callStr ""))

/-- rfc4055.py:78 -/
def sha512Identifier__0 : Py.Proto :=
  { obj := Rfc5280.AlgorithmIdentifier.call }

/-- rfc4055.py:79 `sha512Identifier['algorithm'] = ...` -/
def sha512Identifier__1 : Py.Proto :=
  Rfc4055.sha512Identifier__0.set "algorithm" (.obj Rfc4055.id_sha512)

/-- rfc4055.py:80 `sha512Identifier['parameters'] = ...` -/
def sha512Identifier : Py.Proto :=
  Rfc4055.sha512Identifier__1.set "parameters" (.obj (Py.univ.Null.call.callStr ""))

/-- rfc4055.py:82 -/
def mgf1SHA1Identifier__0 : Py.Proto :=
  { obj := Rfc5280.AlgorithmIdentifier.call }

/-- rfc4055.py:83 `mgf1SHA1Identifier['algorithm'] = ...` -/
def mgf1SHA1Identifier__1 : Py.Proto :=
  Rfc4055.mgf1SHA1Identifier__0.set "algorithm" (.obj Rfc4055.id_mgf1)

/-- rfc4055.py:84 `mgf1SHA1Identifier['parameters'] = ...` -/
def mgf1SHA1Identifier : Py.Proto :=
  Rfc4055.mgf1SHA1Identifier__1.set "parameters" (.obj Rfc4055.sha1Identifier.toObj)

/-- rfc4055.py:86 -/
def mgf1SHA224Identifier__0 : Py.Proto :=
  { obj := Rfc5280.AlgorithmIdentifier.call }

/-- rfc4055.py:87 `mgf1SHA224Identifier['algorithm'] = ...` -/
def mgf1SHA224Identifier__1 : Py.Proto :=
  Rfc4055.mgf1SHA224Identifier__0.set "algorithm" (.obj Rfc4055.id_mgf1)

/-- rfc4055.py:88 `mgf1SHA224Identifier['parameters'] = ...` -/
def mgf1SHA224Identifier : Py.Proto :=
  Rfc4055.mgf1SHA224Identifier__1.set "parameters" (.obj Rfc4055.sha224Identifier.toObj)

/-- rfc4055.py:90 -/
def mgf1SHA256Identifier__0 : Py.Proto :=
  { obj := Rfc5280.AlgorithmIdentifier.call }

/-- rfc4055.py:91 `mgf1SHA256Identifier['algorithm'] = ...` -/
def mgf1SHA256Identifier__1 : Py.Proto :=
  Rfc4055.mgf1SHA256Identifier__0.set "algorithm" (.obj Rfc4055.id_mgf1)

/-- rfc4055.py:92 `mgf1SHA256Identifier['parameters'] = ...` -/
def mgf1SHA256Identifier : Py.Proto :=
  Rfc4055.mgf1SHA256Identifier__1.set "parameters" (.obj Rfc4055.sha256Identifier.toObj)

/-- rfc4055.py:94 -/
def mgf1SHA384Identifier__0 : Py.Proto :=
  { obj := Rfc5280.AlgorithmIdentifier.call }

/-- rfc4055.py:95 `mgf1SHA384Identifier['algorithm'] = ...` -/
def mgf1SHA384Identifier__1 : Py.Proto :=
  Rfc4055.mgf1SHA384Identifier__0.set "algorithm" (.obj Rfc4055.id_mgf1)

/-- rfc4055.py:96 `mgf1SHA384Identifier['parameters'] = ...` -/
def mgf1SHA384Identifier : Py.Proto :=
  Rfc4055.mgf1SHA384Identifier__1.set "parameters" (.obj Rfc4055.sha384Identifier.toObj)

/-- rfc4055.py:98 -/
def mgf1SHA512Identifier__0 : Py.Proto :=
  { obj := Rfc5280.AlgorithmIdentifier.call }

/-- rfc4055.py:99 `mgf1SHA512Identifier['algorithm'] = ...` -/
def mgf1SHA512Identifier__1 : Py.Proto :=
  Rfc4055.mgf1SHA512Identifier__0.set "algorithm" (.obj Rfc4055.id_mgf1)

/-- rfc4055.py:100 `mgf1SHA512Identifier['parameters'] = ...` -/
def mgf1SHA512Identifier : Py.Proto :=
  Rfc4055.mgf1SHA512Identifier__1.set "parameters" (.obj Rfc4055.sha512Identifier.toObj)

/-- rfc4055.py:102 -/
def pSpecifiedEmptyIdentifier__0 : Py.Proto :=
  { obj := Rfc5280.AlgorithmIdentifier.call }

/-- rfc4055.py:103 `pSpecifiedEmptyIdentifier['algorithm'] = ...` -/
def pSpecifiedEmptyIdentifier__1 : Py.Proto :=
  Rfc4055.pSpecifiedEmptyIdentifier__0.set "algorithm" (.obj Rfc4055.id_pSpecified)

/-- rfc4055.py:104 `pSpecifiedEmptyIdentifier['parameters'] = ...` -/
def pSpecifiedEmptyIdentifier : Py.Proto :=
  Rfc4055.pSpecifiedEmptyIdentifier__1.set "parameters" (.obj (Py.univ.OctetString.call.callStr ""))

/-- rfc4055.py:107-108 `class RSAPublicKey(univ.Sequence)` -/
def RSAPublicKey__0 : Py.Obj :=
  Py.univ.Sequence

/-- rfc4055.py:110-113 `RSAPublicKey.componentType = ...` -/
def RSAPublicKey : Py.Obj :=
  Rfc4055.RSAPublicKey__0.setComponentType (Py.NamedTypes [
    Py.NamedType "modulus" Py.univ.Integer.call,
    Py.NamedType "publicExponent" Py.univ.Integer.call])

/-- rfc4055.py:116-117 `class HashAlgorithm(rfc5280.AlgorithmIdentifier)` -/
def HashAlgorithm : Py.Obj :=
  Rfc5280.AlgorithmIdentifier

/-- rfc4055.py:120-121 `class MaskGenAlgorithm(rfc5280.AlgorithmIdentifier)` -/
def MaskGenAlgorithm : Py.Obj :=
  Rfc5280.AlgorithmIdentifier

/-- rfc4055.py:124-125 `class RSAES_OAEP_params(univ.Sequence)` -/
def RSAES_OAEP_params__0 : Py.Obj :=
  Py.univ.Sequence

/-- rfc4055.py:127-134 `RSAES_OAEP_params.componentType = ...` -/
def RSAES_OAEP_params : Py.Obj :=
  Rfc4055.RSAES_OAEP_params__0.setComponentType (Py.NamedTypes [
    Py.OptionalNamedType "hashFunc" (Rfc5280.AlgorithmIdentifier.call.explicitTag (Py.Tag .context true 0)),
    Py.OptionalNamedType "maskGenFunc" (Rfc5280.AlgorithmIdentifier.call.explicitTag (Py.Tag .context true 1)),
    Py.OptionalNamedType "pSourceFunc" (Rfc5280.AlgorithmIdentifier.call.explicitTag (Py.Tag .context true 2))])

/-- rfc4055.py:136 -/
def rSAES_OAEP_Default_Params : Py.Obj :=
  Rfc4055.RSAES_OAEP_params.call

/-- rfc4055.py:138 -/
def rSAES_OAEP_Default_Identifier__0 : Py.Proto :=
  { obj := Rfc5280.AlgorithmIdentifier.call }

/-- rfc4055.py:139 `rSAES_OAEP_Default_Identifier['algorithm'] = ...` -/
def rSAES_OAEP_Default_Identifier__1 : Py.Proto :=
  Rfc4055.rSAES_OAEP_Default_Identifier__0.set "algorithm" (.obj Rfc4055.id_RSAES_OAEP)

/-- rfc4055.py:140 `rSAES_OAEP_Default_Identifier['parameters'] = ...` -/
def rSAES_OAEP_Default_Identifier : Py.Proto :=
  Rfc4055.rSAES_OAEP_Default_Identifier__1.set "parameters" (.obj Rfc4055.rSAES_OAEP_Default_Params)

/-- rfc4055.py:142 -/
def rSAES_OAEP_SHA224_Params__0 : Py.Proto :=
  { obj := Rfc4055.RSAES_OAEP_params.call }

/-- rfc4055.py:143-144 `rSAES_OAEP_SHA224_Params['hashFunc'] = ...` -/
def rSAES_OAEP_SHA224_Params__1 : Py.Proto :=
  Rfc4055.rSAES_OAEP_SHA224_Params__0.set "hashFunc" (.obj ((Rfc4055.sha224Identifier.toObj.explicitTag (Py.Tag .context true 0)).cloneValueFrom Rfc4055.sha224Identifier.toObj))

/-- rfc4055.py:145-146 `rSAES_OAEP_SHA224_Params['maskGenFunc'] = ...` -/
def rSAES_OAEP_SHA224_Params : Py.Proto :=
  Rfc4055.rSAES_OAEP_SHA224_Params__1.set "maskGenFunc" (.obj ((Rfc4055.mgf1SHA224Identifier.toObj.explicitTag (Py.Tag .context true 1)).cloneValueFrom Rfc4055.mgf1SHA224Identifier.toObj))

/-- rfc4055.py:148 -/
def rSAES_OAEP_SHA224_Identifier__0 : Py.Proto :=
  { obj := Rfc5280.AlgorithmIdentifier.call }

/-- rfc4055.py:149 `rSAES_OAEP_SHA224_Identifier['algorithm'] = ...` -/
def rSAES_OAEP_SHA224_Identifier__1 : Py.Proto :=
  Rfc4055.rSAES_OAEP_SHA224_Identifier__0.set "algorithm" (.obj Rfc4055.id_RSAES_OAEP)

/-- rfc4055.py:150 `rSAES_OAEP_SHA224_Identifier['parameters'] = ...` -/
def rSAES_OAEP_SHA224_Identifier : Py.Proto :=
  Rfc4055.rSAES_OAEP_SHA224_Identifier__1.set "parameters" (.obj Rfc4055.rSAES_OAEP_SHA224_Params.toObj)

/-- rfc4055.py:152 -/
def rSAES_OAEP_SHA256_Params__0 : Py.Proto :=
  { obj := Rfc4055.RSAES_OAEP_params.call }

/-- rfc4055.py:153-154 `rSAES_OAEP_SHA256_Params['hashFunc'] = ...` -/
def rSAES_OAEP_SHA256_Params__1 : Py.Proto :=
  Rfc4055.rSAES_OAEP_SHA256_Params__0.set "hashFunc" (.obj ((Rfc4055.sha256Identifier.toObj.explicitTag (Py.Tag .context true 0)).cloneValueFrom Rfc4055.sha256Identifier.toObj))

/-- rfc4055.py:155-156 `rSAES_OAEP_SHA256_Params['maskGenFunc'] = ...` -/
def rSAES_OAEP_SHA256_Params : Py.Proto :=
  Rfc4055.rSAES_OAEP_SHA256_Params__1.set "maskGenFunc" (.obj ((Rfc4055.mgf1SHA256Identifier.toObj.explicitTag (Py.Tag .context true 1)).cloneValueFrom Rfc4055.mgf1SHA256Identifier.toObj))

/-- rfc4055.py:158 -/
def rSAES_OAEP_SHA256_Identifier__0 : Py.Proto :=
  { obj := Rfc5280.AlgorithmIdentifier.call }

/-- rfc4055.py:159 `rSAES_OAEP_SHA256_Identifier['algorithm'] = ...` -/
def rSAES_OAEP_SHA256_Identifier__1 : Py.Proto :=
  Rfc4055.rSAES_OAEP_SHA256_Identifier__0.set "algorithm" (.obj Rfc4055.id_RSAES_OAEP)

/-- rfc4055.py:160 `rSAES_OAEP_SHA256_Identifier['parameters'] = ...` -/
def rSAES_OAEP_SHA256_Identifier : Py.Proto :=
  Rfc4055.rSAES_OAEP_SHA256_Identifier__1.set "parameters" (.obj Rfc4055.rSAES_OAEP_SHA256_Params.toObj)

/-- rfc4055.py:162 -/
def rSAES_OAEP_SHA384_Params__0 : Py.Proto :=
  { obj := Rfc4055.RSAES_OAEP_params.call }

/-- rfc4055.py:163-164 `rSAES_OAEP_SHA384_Params['hashFunc'] = ...` -/
def rSAES_OAEP_SHA384_Params__1 : Py.Proto :=
  Rfc4055.rSAES_OAEP_SHA384_Params__0.set "hashFunc" (.obj ((Rfc4055.sha384Identifier.toObj.explicitTag (Py.Tag .context true 0)).cloneValueFrom Rfc4055.sha384Identifier.toObj))

/-- rfc4055.py:165-166 `rSAES_OAEP_SHA384_Params['maskGenFunc'] = ...` -/
def rSAES_OAEP_SHA384_Params : Py.Proto :=
  Rfc4055.rSAES_OAEP_SHA384_Params__1.set "maskGenFunc" (.obj ((Rfc4055.mgf1SHA384Identifier.toObj.explicitTag (Py.Tag .context true 1)).cloneValueFrom Rfc4055.mgf1SHA384Identifier.toObj))

/-- rfc4055.py:168 -/
def rSAES_OAEP_SHA384_Identifier__0 : Py.Proto :=
  { obj := Rfc5280.AlgorithmIdentifier.call }

/-- rfc4055.py:169 `rSAES_OAEP_SHA384_Identifier['algorithm'] = ...` -/
def rSAES_OAEP_SHA384_Identifier__1 : Py.Proto :=
  Rfc4055.rSAES_OAEP_SHA384_Identifier__0.set "algorithm" (.obj Rfc4055.id_RSAES_OAEP)

/-- rfc4055.py:170 `rSAES_OAEP_SHA384_Identifier['parameters'] = ...` -/
def rSAES_OAEP_SHA384_Identifier : Py.Proto :=
  Rfc4055.rSAES_OAEP_SHA384_Identifier__1.set "parameters" (.obj Rfc4055.rSAES_OAEP_SHA384_Params.toObj)

/-- rfc4055.py:172 -/
def rSAES_OAEP_SHA512_Params__0 : Py.Proto :=
  { obj := Rfc4055.RSAES_OAEP_params.call }

/-- rfc4055.py:173-174 `rSAES_OAEP_SHA512_Params['hashFunc'] = ...` -/
def rSAES_OAEP_SHA512_Params__1 : Py.Proto :=
  Rfc4055.rSAES_OAEP_SHA512_Params__0.set "hashFunc" (.obj ((Rfc4055.sha512Identifier.toObj.explicitTag (Py.Tag .context true 0)).cloneValueFrom Rfc4055.sha512Identifier.toObj))

/-- rfc4055.py:175-176 `rSAES_OAEP_SHA512_Params['maskGenFunc'] = ...` -/
def rSAES_OAEP_SHA512_Params : Py.Proto :=
  Rfc4055.rSAES_OAEP_SHA512_Params__1.set "maskGenFunc" (.obj ((Rfc4055.mgf1SHA512Identifier.toObj.explicitTag (Py.Tag .context true 1)).cloneValueFrom Rfc4055.mgf1SHA512Identifier.toObj))

/-- rfc4055.py:178 -/
def rSAES_OAEP_SHA512_Identifier__0 : Py.Proto :=
  { obj := Rfc5280.AlgorithmIdentifier.call }

/-- rfc4055.py:179 `rSAES_OAEP_SHA512_Identifier['algorithm'] = ...` -/
def rSAES_OAEP_SHA512_Identifier__1 : Py.Proto :=
  Rfc4055.rSAES_OAEP_SHA512_Identifier__0.set "algorithm" (.obj Rfc4055.id_RSAES_OAEP)

/-- rfc4055.py:180 `rSAES_OAEP_SHA512_Identifier['parameters'] = ...` -/
def rSAES_OAEP_SHA512_Identifier : Py.Proto :=
  Rfc4055.rSAES_OAEP_SHA512_Identifier__1.set "parameters" (.obj Rfc4055.rSAES_OAEP_SHA512_Params.toObj)

/-- rfc4055.py:183-184 `class RSASSA_PSS_params(univ.Sequence)` -/
def RSASSA_PSS_params__0 : Py.Obj :=
  Py.univ.Sequence

/-- rfc4055.py:186-195 `RSASSA_PSS_params.componentType = ...` -/
def RSASSA_PSS_params : Py.Obj :=
  Rfc4055.RSASSA_PSS_params__0.setComponentType (Py.NamedTypes [
    Py.OptionalNamedType "hashAlgorithm" (Rfc5280.AlgorithmIdentifier.call.explicitTag (Py.Tag .context true 0)),
    Py.OptionalNamedType "maskGenAlgorithm" (Rfc5280.AlgorithmIdentifier.call.explicitTag (Py.Tag .context true 1)),
    Py.DefaultedNamedType "saltLength" ((Py.univ.Integer.call.callInt 20).explicitTag (Py.Tag .context false 2)),
    Py.DefaultedNamedType "trailerField" ((Py.univ.Integer.call.callInt 1).explicitTag (Py.Tag .context false 3))])

/-- rfc4055.py:197 -/
def rSASSA_PSS_Default_Params : Py.Obj :=
  Rfc4055.RSASSA_PSS_params.call

/-- rfc4055.py:199 -/
def rSASSA_PSS_Default_Identifier__0 : Py.Proto :=
  { obj := Rfc5280.AlgorithmIdentifier.call }

/-- rfc4055.py:200 `rSASSA_PSS_Default_Identifier['algorithm'] = ...` -/
def rSASSA_PSS_Default_Identifier__1 : Py.Proto :=
  Rfc4055.rSASSA_PSS_Default_Identifier__0.set "algorithm" (.obj Rfc4055.id_RSASSA_PSS)

/-- rfc4055.py:201 `rSASSA_PSS_Default_Identifier['parameters'] = ...` -/
def rSASSA_PSS_Default_Identifier : Py.Proto :=
  Rfc4055.rSASSA_PSS_Default_Identifier__1.set "parameters" (.obj Rfc4055.rSASSA_PSS_Default_Params)

/-- rfc4055.py:203 -/
def rSASSA_PSS_SHA224_Params__0 : Py.Proto :=
  { obj := Rfc4055.RSASSA_PSS_params.call }

/-- rfc4055.py:204-205 `rSASSA_PSS_SHA224_Params['hashAlgorithm'] = ...` -/
def rSASSA_PSS_SHA224_Params__1 : Py.Proto :=
  Rfc4055.rSASSA_PSS_SHA224_Params__0.set "hashAlgorithm" (.obj ((Rfc4055.sha224Identifier.toObj.explicitTag (Py.Tag .context true 0)).cloneValueFrom Rfc4055.sha224Identifier.toObj))

/-- rfc4055.py:206-207 `rSASSA_PSS_SHA224_Params['maskGenAlgorithm'] = ...` -/
def rSASSA_PSS_SHA224_Params : Py.Proto :=
  Rfc4055.rSASSA_PSS_SHA224_Params__1.set "maskGenAlgorithm" (.obj ((Rfc4055.mgf1SHA224Identifier.toObj.explicitTag (Py.Tag .context true 1)).cloneValueFrom Rfc4055.mgf1SHA224Identifier.toObj))

/-- rfc4055.py:209 -/
def rSASSA_PSS_SHA224_Identifier__0 : Py.Proto :=
  { obj := Rfc5280.AlgorithmIdentifier.call }

/-- rfc4055.py:210 `rSASSA_PSS_SHA224_Identifier['algorithm'] = ...` -/
def rSASSA_PSS_SHA224_Identifier__1 : Py.Proto :=
  Rfc4055.rSASSA_PSS_SHA224_Identifier__0.set "algorithm" (.obj Rfc4055.id_RSASSA_PSS)

/-- rfc4055.py:211 `rSASSA_PSS_SHA224_Identifier['parameters'] = ...` -/
def rSASSA_PSS_SHA224_Identifier : Py.Proto :=
  Rfc4055.rSASSA_PSS_SHA224_Identifier__1.set "parameters" (.obj Rfc4055.rSASSA_PSS_SHA224_Params.toObj)

/-- rfc4055.py:213 -/
def rSASSA_PSS_SHA256_Params__0 : Py.Proto :=
  { obj := Rfc4055.RSASSA_PSS_params.call }

/-- rfc4055.py:214-215 `rSASSA_PSS_SHA256_Params['hashAlgorithm'] = ...` -/
def rSASSA_PSS_SHA256_Params__1 : Py.Proto :=
  Rfc4055.rSASSA_PSS_SHA256_Params__0.set "hashAlgorithm" (.obj ((Rfc4055.sha256Identifier.toObj.explicitTag (Py.Tag .context true 0)).cloneValueFrom Rfc4055.sha256Identifier.toObj))

/-- rfc4055.py:216-217 `rSASSA_PSS_SHA256_Params['maskGenAlgorithm'] = ...` -/
def rSASSA_PSS_SHA256_Params : Py.Proto :=
  Rfc4055.rSASSA_PSS_SHA256_Params__1.set "maskGenAlgorithm" (.obj ((Rfc4055.mgf1SHA256Identifier.toObj.explicitTag (Py.Tag .context true 1)).cloneValueFrom Rfc4055.mgf1SHA256Identifier.toObj))

/-- rfc4055.py:219 -/
def rSASSA_PSS_SHA256_Identifier__0 : Py.Proto :=
  { obj := Rfc5280.AlgorithmIdentifier.call }

/-- rfc4055.py:220 `rSASSA_PSS_SHA256_Identifier['algorithm'] = ...` -/
def rSASSA_PSS_SHA256_Identifier__1 : Py.Proto :=
  Rfc4055.rSASSA_PSS_SHA256_Identifier__0.set "algorithm" (.obj Rfc4055.id_RSASSA_PSS)

/-- rfc4055.py:221 `rSASSA_PSS_SHA256_Identifier['parameters'] = ...` -/
def rSASSA_PSS_SHA256_Identifier : Py.Proto :=
  Rfc4055.rSASSA_PSS_SHA256_Identifier__1.set "parameters" (.obj Rfc4055.rSASSA_PSS_SHA256_Params.toObj)

/-- rfc4055.py:223 -/
def rSASSA_PSS_SHA384_Params__0 : Py.Proto :=
  { obj := Rfc4055.RSASSA_PSS_params.call }

/-- rfc4055.py:224-225 `rSASSA_PSS_SHA384_Params['hashAlgorithm'] = ...` -/
def rSASSA_PSS_SHA384_Params__1 : Py.Proto :=
  Rfc4055.rSASSA_PSS_SHA384_Params__0.set "hashAlgorithm" (.obj ((Rfc4055.sha384Identifier.toObj.explicitTag (Py.Tag .context true 0)).cloneValueFrom Rfc4055.sha384Identifier.toObj))

/-- rfc4055.py:226-227 `rSASSA_PSS_SHA384_Params['maskGenAlgorithm'] = ...` -/
def rSASSA_PSS_SHA384_Params : Py.Proto :=
  Rfc4055.rSASSA_PSS_SHA384_Params__1.set "maskGenAlgorithm" (.obj ((Rfc4055.mgf1SHA384Identifier.toObj.explicitTag (Py.Tag .context true 1)).cloneValueFrom Rfc4055.mgf1SHA384Identifier.toObj))

/-- rfc4055.py:229 -/
def rSASSA_PSS_SHA384_Identifier__0 : Py.Proto :=
  { obj := Rfc5280.AlgorithmIdentifier.call }

/-- rfc4055.py:230 `rSASSA_PSS_SHA384_Identifier['algorithm'] = ...` -/
def rSASSA_PSS_SHA384_Identifier__1 : Py.Proto :=
  Rfc4055.rSASSA_PSS_SHA384_Identifier__0.set "algorithm" (.obj Rfc4055.id_RSASSA_PSS)

/-- rfc4055.py:231 `rSASSA_PSS_SHA384_Identifier['parameters'] = ...` -/
def rSASSA_PSS_SHA384_Identifier : Py.Proto :=
  Rfc4055.rSASSA_PSS_SHA384_Identifier__1.set "parameters" (.obj Rfc4055.rSASSA_PSS_SHA384_Params.toObj)

/-- rfc4055.py:233 -/
def rSASSA_PSS_SHA512_Params__0 : Py.Proto :=
  { obj := Rfc4055.RSASSA_PSS_params.call }

/-- rfc4055.py:234-235 `rSASSA_PSS_SHA512_Params['hashAlgorithm'] = ...` -/
def rSASSA_PSS_SHA512_Params__1 : Py.Proto :=
  Rfc4055.rSASSA_PSS_SHA512_Params__0.set "hashAlgorithm" (.obj ((Rfc4055.sha512Identifier.toObj.explicitTag (Py.Tag .context true 0)).cloneValueFrom Rfc4055.sha512Identifier.toObj))

/-- rfc4055.py:236-237 `rSASSA_PSS_SHA512_Params['maskGenAlgorithm'] = ...` -/
def rSASSA_PSS_SHA512_Params : Py.Proto :=
  Rfc4055.rSASSA_PSS_SHA512_Params__1.set "maskGenAlgorithm" (.obj ((Rfc4055.mgf1SHA512Identifier.toObj.explicitTag (Py.Tag .context true 1)).cloneValueFrom Rfc4055.mgf1SHA512Identifier.toObj))

/-- rfc4055.py:239 -/
def rSASSA_PSS_SHA512_Identifier__0 : Py.Proto :=
  { obj := Rfc5280.AlgorithmIdentifier.call }

/-- rfc4055.py:240 `rSASSA_PSS_SHA512_Identifier['algorithm'] = ...` -/
def rSASSA_PSS_SHA512_Identifier__1 : Py.Proto :=
  Rfc4055.rSASSA_PSS_SHA512_Identifier__0.set "algorithm" (.obj Rfc4055.id_RSASSA_PSS)

/-- rfc4055.py:241 `rSASSA_PSS_SHA512_Identifier['parameters'] = ...` -/
def rSASSA_PSS_SHA512_Identifier : Py.Proto :=
  Rfc4055.rSASSA_PSS_SHA512_Identifier__1.set "parameters" (.obj Rfc4055.rSASSA_PSS_SHA512_Params.toObj)

/-- rfc4055.py:246-256 -/
def _algorithmIdentifierMapUpdate : Py.Entries :=
  [(Rfc4055.id_sha1.value, Py.univ.Null.call.ty),
    (Rfc4055.id_sha224.value, Py.univ.Null.call.ty),
    (Rfc4055.id_sha256.value, Py.univ.Null.call.ty),
    (Rfc4055.id_sha384.value, Py.univ.Null.call.ty),
    (Rfc4055.id_sha512.value, Py.univ.Null.call.ty),
    (Rfc4055.id_mgf1.value, Rfc5280.AlgorithmIdentifier.call.ty),
    (Rfc4055.id_pSpecified.value, Py.univ.OctetString.call.ty),
    (Rfc4055.id_RSAES_OAEP.value, Rfc4055.RSAES_OAEP_params.call.ty),
    (Rfc4055.id_RSASSA_PSS.value, Rfc4055.RSASSA_PSS_params.call.ty)]

/-- Modules of this package imported by rfc4055.py, in textual order. -/
def imports : List Py.Ident :=
  [(Py.mod 15 "rfc5280")]

/-- Dictionary operations executed when rfc4055.py is imported, in program order. -/
def effects : List Py.Effect :=
  [.create (Py.map 58 "rfc4055._algorithmIdentifierMapUpdate") Rfc4055._algorithmIdentifierMapUpdate /- rfc4055.py:246-256 -/,
   .update (Py.map 3 "rfc5280.algorithmIdentifierMap") Rfc4055._algorithmIdentifierMapUpdate /- rfc4055.py:258 -/]

/-- ASN.1 types rfc4055.py binds at module level (final version of each name), plus nested classes. -/
def classes : List (String × Py.Obj) :=
  [("rfc4055.RSAPublicKey", Rfc4055.RSAPublicKey),
   ("rfc4055.HashAlgorithm", Rfc4055.HashAlgorithm),
   ("rfc4055.MaskGenAlgorithm", Rfc4055.MaskGenAlgorithm),
   ("rfc4055.RSAES_OAEP_params", Rfc4055.RSAES_OAEP_params),
   ("rfc4055.RSASSA_PSS_params", Rfc4055.RSASSA_PSS_params)]

/-- pyasn1 instances rfc4055.py binds at module level. -/
def objects : List (String × Py.Obj) :=
  [("rfc4055.id_sha1", Rfc4055.id_sha1),
   ("rfc4055.id_sha256", Rfc4055.id_sha256),
   ("rfc4055.id_sha384", Rfc4055.id_sha384),
   ("rfc4055.id_sha512", Rfc4055.id_sha512),
   ("rfc4055.id_sha224", Rfc4055.id_sha224),
   ("rfc4055.rsaEncryption", Rfc4055.rsaEncryption),
   ("rfc4055.id_mgf1", Rfc4055.id_mgf1),
   ("rfc4055.id_RSAES_OAEP", Rfc4055.id_RSAES_OAEP),
   ("rfc4055.id_pSpecified", Rfc4055.id_pSpecified),
   ("rfc4055.id_RSASSA_PSS", Rfc4055.id_RSASSA_PSS),
   ("rfc4055.sha256WithRSAEncryption", Rfc4055.sha256WithRSAEncryption),
   ("rfc4055.sha384WithRSAEncryption", Rfc4055.sha384WithRSAEncryption),
   ("rfc4055.sha512WithRSAEncryption", Rfc4055.sha512WithRSAEncryption),
   ("rfc4055.sha224WithRSAEncryption", Rfc4055.sha224WithRSAEncryption),
   ("rfc4055.rSAES_OAEP_Default_Params", Rfc4055.rSAES_OAEP_Default_Params),
   ("rfc4055.rSASSA_PSS_Default_Params", Rfc4055.rSASSA_PSS_Default_Params)]

/-- pyasn1 instances rfc4055.py fills in by item assignment. -/
def protos : List (String × Py.Proto) :=
  [("rfc4055.sha1Identifier", Rfc4055.sha1Identifier),
   ("rfc4055.sha224Identifier", Rfc4055.sha224Identifier),
   ("rfc4055.sha256Identifier", Rfc4055.sha256Identifier),
   ("rfc4055.sha384Identifier", Rfc4055.sha384Identifier),
   ("rfc4055.sha512Identifier", Rfc4055.sha512Identifier),
   ("rfc4055.mgf1SHA1Identifier", Rfc4055.mgf1SHA1Identifier),
   ("rfc4055.mgf1SHA224Identifier", Rfc4055.mgf1SHA224Identifier),
   ("rfc4055.mgf1SHA256Identifier", Rfc4055.mgf1SHA256Identifier),
   ("rfc4055.mgf1SHA384Identifier", Rfc4055.mgf1SHA384Identifier),
   ("rfc4055.mgf1SHA512Identifier", Rfc4055.mgf1SHA512Identifier),
   ("rfc4055.pSpecifiedEmptyIdentifier", Rfc4055.pSpecifiedEmptyIdentifier),
   ("rfc4055.rSAES_OAEP_Default_Identifier", Rfc4055.rSAES_OAEP_Default_Identifier),
   ("rfc4055.rSAES_OAEP_SHA224_Params", Rfc4055.rSAES_OAEP_SHA224_Params),
   ("rfc4055.rSAES_OAEP_SHA224_Identifier", Rfc4055.rSAES_OAEP_SHA224_Identifier),
   ("rfc4055.rSAES_OAEP_SHA256_Params", Rfc4055.rSAES_OAEP_SHA256_Params),
   ("rfc4055.rSAES_OAEP_SHA256_Identifier", Rfc4055.rSAES_OAEP_SHA256_Identifier),
   ("rfc4055.rSAES_OAEP_SHA384_Params", Rfc4055.rSAES_OAEP_SHA384_Params),
   ("rfc4055.rSAES_OAEP_SHA384_Identifier", Rfc4055.rSAES_OAEP_SHA384_Identifier),
   ("rfc4055.rSAES_OAEP_SHA512_Params", Rfc4055.rSAES_OAEP_SHA512_Params),
   ("rfc4055.rSAES_OAEP_SHA512_Identifier", Rfc4055.rSAES_OAEP_SHA512_Identifier),
   ("rfc4055.rSASSA_PSS_Default_Identifier", Rfc4055.rSASSA_PSS_Default_Identifier),
   ("rfc4055.rSASSA_PSS_SHA224_Params", Rfc4055.rSASSA_PSS_SHA224_Params),
   ("rfc4055.rSASSA_PSS_SHA224_Identifier", Rfc4055.rSASSA_PSS_SHA224_Identifier),
   ("rfc4055.rSASSA_PSS_SHA256_Params", Rfc4055.rSASSA_PSS_SHA256_Params),
   ("rfc4055.rSASSA_PSS_SHA256_Identifier", Rfc4055.rSASSA_PSS_SHA256_Identifier),
   ("rfc4055.rSASSA_PSS_SHA384_Params", Rfc4055.rSASSA_PSS_SHA384_Params),
   ("rfc4055.rSASSA_PSS_SHA384_Identifier", Rfc4055.rSASSA_PSS_SHA384_Identifier),
   ("rfc4055.rSASSA_PSS_SHA512_Params", Rfc4055.rSASSA_PSS_SHA512_Params),
   ("rfc4055.rSASSA_PSS_SHA512_Identifier", Rfc4055.rSASSA_PSS_SHA512_Identifier)]

/-- Every place of rfc4055.py that instantiates a class of the package: where, the class as it is
at that point, and the class as it is when the import has finished. -/
def snapshots : List Py.Snapshot :=
  [⟨"rfc4055.py:62", Rfc5280.AlgorithmIdentifier, Rfc5280.AlgorithmIdentifier⟩,
   ⟨"rfc4055.py:66", Rfc5280.AlgorithmIdentifier, Rfc5280.AlgorithmIdentifier⟩,
   ⟨"rfc4055.py:70", Rfc5280.AlgorithmIdentifier, Rfc5280.AlgorithmIdentifier⟩,
   ⟨"rfc4055.py:74", Rfc5280.AlgorithmIdentifier, Rfc5280.AlgorithmIdentifier⟩,
   ⟨"rfc4055.py:78", Rfc5280.AlgorithmIdentifier, Rfc5280.AlgorithmIdentifier⟩,
   ⟨"rfc4055.py:82", Rfc5280.AlgorithmIdentifier, Rfc5280.AlgorithmIdentifier⟩,
   ⟨"rfc4055.py:86", Rfc5280.AlgorithmIdentifier, Rfc5280.AlgorithmIdentifier⟩,
   ⟨"rfc4055.py:90", Rfc5280.AlgorithmIdentifier, Rfc5280.AlgorithmIdentifier⟩,
   ⟨"rfc4055.py:94", Rfc5280.AlgorithmIdentifier, Rfc5280.AlgorithmIdentifier⟩,
   ⟨"rfc4055.py:98", Rfc5280.AlgorithmIdentifier, Rfc5280.AlgorithmIdentifier⟩,
   ⟨"rfc4055.py:102", Rfc5280.AlgorithmIdentifier, Rfc5280.AlgorithmIdentifier⟩,
   ⟨"rfc4055.py:128", Rfc5280.AlgorithmIdentifier, Rfc5280.AlgorithmIdentifier⟩,
   ⟨"rfc4055.py:130", Rfc5280.AlgorithmIdentifier, Rfc5280.AlgorithmIdentifier⟩,
   ⟨"rfc4055.py:132", Rfc5280.AlgorithmIdentifier, Rfc5280.AlgorithmIdentifier⟩,
   ⟨"rfc4055.py:136", Rfc4055.RSAES_OAEP_params, Rfc4055.RSAES_OAEP_params⟩,
   ⟨"rfc4055.py:138", Rfc5280.AlgorithmIdentifier, Rfc5280.AlgorithmIdentifier⟩,
   ⟨"rfc4055.py:142", Rfc4055.RSAES_OAEP_params, Rfc4055.RSAES_OAEP_params⟩,
   ⟨"rfc4055.py:148", Rfc5280.AlgorithmIdentifier, Rfc5280.AlgorithmIdentifier⟩,
   ⟨"rfc4055.py:152", Rfc4055.RSAES_OAEP_params, Rfc4055.RSAES_OAEP_params⟩,
   ⟨"rfc4055.py:158", Rfc5280.AlgorithmIdentifier, Rfc5280.AlgorithmIdentifier⟩,
   ⟨"rfc4055.py:162", Rfc4055.RSAES_OAEP_params, Rfc4055.RSAES_OAEP_params⟩,
   ⟨"rfc4055.py:168", Rfc5280.AlgorithmIdentifier, Rfc5280.AlgorithmIdentifier⟩,
   ⟨"rfc4055.py:172", Rfc4055.RSAES_OAEP_params, Rfc4055.RSAES_OAEP_params⟩,
   ⟨"rfc4055.py:178", Rfc5280.AlgorithmIdentifier, Rfc5280.AlgorithmIdentifier⟩,
   ⟨"rfc4055.py:187", Rfc5280.AlgorithmIdentifier, Rfc5280.AlgorithmIdentifier⟩,
   ⟨"rfc4055.py:189", Rfc5280.AlgorithmIdentifier, Rfc5280.AlgorithmIdentifier⟩,
   ⟨"rfc4055.py:197", Rfc4055.RSASSA_PSS_params, Rfc4055.RSASSA_PSS_params⟩,
   ⟨"rfc4055.py:199", Rfc5280.AlgorithmIdentifier, Rfc5280.AlgorithmIdentifier⟩,
   ⟨"rfc4055.py:203", Rfc4055.RSASSA_PSS_params, Rfc4055.RSASSA_PSS_params⟩,
   ⟨"rfc4055.py:209", Rfc5280.AlgorithmIdentifier, Rfc5280.AlgorithmIdentifier⟩,
   ⟨"rfc4055.py:213", Rfc4055.RSASSA_PSS_params, Rfc4055.RSASSA_PSS_params⟩,
   ⟨"rfc4055.py:219", Rfc5280.AlgorithmIdentifier, Rfc5280.AlgorithmIdentifier⟩,
   ⟨"rfc4055.py:223", Rfc4055.RSASSA_PSS_params, Rfc4055.RSASSA_PSS_params⟩,
   ⟨"rfc4055.py:229", Rfc5280.AlgorithmIdentifier, Rfc5280.AlgorithmIdentifier⟩,
   ⟨"rfc4055.py:233", Rfc4055.RSASSA_PSS_params, Rfc4055.RSASSA_PSS_params⟩,
   ⟨"rfc4055.py:239", Rfc5280.AlgorithmIdentifier, Rfc5280.AlgorithmIdentifier⟩,
   ⟨"rfc4055.py:252", Rfc5280.AlgorithmIdentifier, Rfc5280.AlgorithmIdentifier⟩,
   ⟨"rfc4055.py:254", Rfc4055.RSAES_OAEP_params, Rfc4055.RSAES_OAEP_params⟩,
   ⟨"rfc4055.py:255", Rfc4055.RSASSA_PSS_params, Rfc4055.RSASSA_PSS_params⟩]

/-- Functions rfc4055.py defines. -/
def builders : List (String × (List Py.OidArg → Py.Obj)) :=
  [("rfc4055._OID", Rfc4055._OID)]

def asModule : Py.Module :=
  { id := (Py.mod 42 "rfc4055"), imports := imports, effects := effects, classes := classes, objects := objects, protos := protos, snapshots := snapshots, builders := builders }

end Rfc4055
end Verif
