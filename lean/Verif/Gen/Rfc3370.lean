import Verif.Py.Obj
import Verif.Gen.Rfc3279
import Verif.Gen.Rfc5280
import Verif.Gen.Rfc5751
import Verif.Gen.Rfc5753
import Verif.Gen.Rfc5990
import Verif.Gen.Rfc8018

/-! Transcription of /repo/pyasn1_modules/rfc3370.py (generated by tools/gen.py). -/

namespace Verif
namespace Rfc3370

/-- rfc3370.py:27 alias of `rfc5280.AlgorithmIdentifier` -/
def AlgorithmIdentifier : Py.Obj :=
  Rfc5280.AlgorithmIdentifier

/-- rfc3370.py:32 alias of `rfc3279.dhpublicnumber` -/
def dhpublicnumber : Py.Obj :=
  Rfc3279.dhpublicnumber

/-- rfc3370.py:34 alias of `dhpublicnumber` -/
def dh_public_number : Py.Obj :=
  Rfc3370.dhpublicnumber

/-- rfc3370.py:36 alias of `rfc3279.DHPublicKey` -/
def DHPublicKey : Py.Obj :=
  Rfc3279.DHPublicKey

/-- rfc3370.py:38 alias of `rfc3279.DomainParameters` -/
def DomainParameters : Py.Obj :=
  Rfc3279.DomainParameters

/-- rfc3370.py:40 alias of `DomainParameters` -/
def DHDomainParameters : Py.Obj :=
  Rfc3370.DomainParameters

/-- rfc3370.py:42 alias of `rfc3279.Dss_Parms` -/
def Dss_Parms : Py.Obj :=
  Rfc3279.Dss_Parms

/-- rfc3370.py:44 alias of `rfc3279.Dss_Sig_Value` -/
def Dss_Sig_Value : Py.Obj :=
  Rfc3279.Dss_Sig_Value

/-- rfc3370.py:46 alias of `rfc3279.md5` -/
def md5 : Py.Obj :=
  Rfc3279.md5

/-- rfc3370.py:48 alias of `rfc3279.md5WithRSAEncryption` -/
def md5WithRSAEncryption : Py.Obj :=
  Rfc3279.md5WithRSAEncryption

/-- rfc3370.py:50 alias of `rfc3279.RSAPublicKey` -/
def RSAPublicKey : Py.Obj :=
  Rfc3279.RSAPublicKey

/-- rfc3370.py:52 alias of `rfc3279.rsaEncryption` -/
def rsaEncryption : Py.Obj :=
  Rfc3279.rsaEncryption

/-- rfc3370.py:54 alias of `rfc3279.ValidationParms` -/
def ValidationParms : Py.Obj :=
  Rfc3279.ValidationParms

/-- rfc3370.py:56 alias of `rfc3279.id_dsa` -/
def id_dsa : Py.Obj :=
  Rfc3279.id_dsa

/-- rfc3370.py:58 alias of `rfc3279.id_dsa_with_sha1` -/
def id_dsa_with_sha1 : Py.Obj :=
  Rfc3279.id_dsa_with_sha1

/-- rfc3370.py:60 alias of `rfc3279.id_sha1` -/
def id_sha1 : Py.Obj :=
  Rfc3279.id_sha1

/-- rfc3370.py:62 alias of `id_sha1` -/
def sha_1 : Py.Obj :=
  Rfc3370.id_sha1

/-- rfc3370.py:64 alias of `rfc3279.sha1WithRSAEncryption` -/
def sha1WithRSAEncryption : Py.Obj :=
  Rfc3279.sha1WithRSAEncryption

/-- rfc3370.py:69 alias of `rfc5753.CBCParameter` -/
def CBCParameter__0 : Py.Obj :=
  Rfc5753.CBCParameter

/-- rfc3370.py:71 alias of `rfc5753.IV` -/
def CBCParameter : Py.Obj :=
  Rfc5753.IV

/-- rfc3370.py:73 alias of `rfc5753.KeyWrapAlgorithm` -/
def KeyWrapAlgorithm : Py.Obj :=
  Rfc5753.KeyWrapAlgorithm

/-- rfc3370.py:78 alias of `rfc5990.id_alg_CMS3DESwrap` -/
def id_alg_CMS3DESwrap : Py.Obj :=
  Rfc5990.id_alg_CMS3DESwrap

/-- rfc3370.py:83 alias of `rfc8018.des_EDE3_CBC` -/
def des_EDE3_CBC : Py.Obj :=
  Rfc8018.des_EDE3_CBC

/-- rfc3370.py:85 alias of `des_EDE3_CBC` -/
def des_ede3_cbc : Py.Obj :=
  Rfc3370.des_EDE3_CBC

/-- rfc3370.py:87 alias of `rfc8018.rc2CBC` -/
def rc2CBC : Py.Obj :=
  Rfc8018.rc2CBC

/-- rfc3370.py:89 alias of `rc2CBC` -/
def rc2_cbc : Py.Obj :=
  Rfc3370.rc2CBC

/-- rfc3370.py:91 alias of `rfc8018.RC2_CBC_Parameter` -/
def RC2_CBC_Parameter : Py.Obj :=
  Rfc8018.RC2_CBC_Parameter

/-- rfc3370.py:93 alias of `RC2_CBC_Parameter` -/
def RC2CBCParameter : Py.Obj :=
  Rfc3370.RC2_CBC_Parameter

/-- rfc3370.py:95 alias of `rfc8018.PBKDF2_params` -/
def PBKDF2_params : Py.Obj :=
  Rfc8018.PBKDF2_params

/-- rfc3370.py:97 alias of `rfc8018.id_PBKDF2` -/
def id_PBKDF2 : Py.Obj :=
  Rfc8018.id_PBKDF2

/-- rfc3370.py:102 -/
def hMAC_SHA1 : Py.Obj :=
  (Py.univ.ObjectIdentifier.call.callArcs [1, 3, 6, 1, 5, 5, 8, 1, 2])

/-- rfc3370.py:105 -/
def id_alg_ESDH : Py.Obj :=
  (Py.univ.ObjectIdentifier.call.callArcs [1, 2, 840, 113549, 1, 9, 16, 3, 5])

/-- rfc3370.py:108 -/
def id_alg_SSDH : Py.Obj :=
  (Py.univ.ObjectIdentifier.call.callArcs [1, 2, 840, 113549, 1, 9, 16, 3, 10])

/-- rfc3370.py:111 -/
def id_alg_CMSRC2wrap : Py.Obj :=
  (Py.univ.ObjectIdentifier.call.callArcs [1, 2, 840, 113549, 1, 9, 16, 3, 7])

/-- rfc3370.py:114-115 `class RC2ParameterVersion(univ.Integer)` -/
def RC2ParameterVersion : Py.Obj :=
  Py.univ.Integer

/-- rfc3370.py:118-119 `class RC2wrapParameter(RC2ParameterVersion)` -/
def RC2wrapParameter : Py.Obj :=
  Rfc3370.RC2ParameterVersion

/-- rfc3370.py:122-123 `class Dss_Pub_Key(univ.Integer)` -/
def Dss_Pub_Key : Py.Obj :=
  Py.univ.Integer

/-- rfc3370.py:128-133 -/
def _algorithmIdentifierMapUpdate : Py.Entries :=
  [(Rfc3370.hMAC_SHA1.value, (Py.univ.Null.call.callStr "").ty),
    (Rfc3370.id_alg_CMSRC2wrap.value, Rfc3370.RC2wrapParameter.call.ty),
    (Rfc3370.id_alg_ESDH.value, Rfc3370.KeyWrapAlgorithm.call.ty),
    (Rfc3370.id_alg_SSDH.value, Rfc3370.KeyWrapAlgorithm.call.ty)]

/-- rfc3370.py:140-144 -/
def _smimeCapabilityMapUpdate : Py.Entries :=
  [(Rfc3370.id_alg_CMSRC2wrap.value, Rfc3370.RC2wrapParameter.call.ty),
    (Rfc3370.id_alg_ESDH.value, Rfc3370.KeyWrapAlgorithm.call.ty),
    (Rfc3370.id_alg_SSDH.value, Rfc3370.KeyWrapAlgorithm.call.ty)]

/-- Modules of this package imported by rfc3370.py, in textual order. -/
def imports : List Py.Ident :=
  [(Py.mod 33 "rfc3279"), (Py.mod 15 "rfc5280"), (Py.mod 20 "rfc5751"), (Py.mod 35 "rfc5753"), (Py.mod 36 "rfc5990"), (Py.mod 19 "rfc8018")]

/-- Dictionary operations executed when rfc3370.py is imported, in program order. -/
def effects : List Py.Effect :=
  [.create (Py.map 41 "rfc3370._algorithmIdentifierMapUpdate") Rfc3370._algorithmIdentifierMapUpdate /- rfc3370.py:128-133 -/,
   .update (Py.map 3 "rfc5280.algorithmIdentifierMap") Rfc3370._algorithmIdentifierMapUpdate /- rfc3370.py:135 -/,
   .create (Py.map 42 "rfc3370._smimeCapabilityMapUpdate") Rfc3370._smimeCapabilityMapUpdate /- rfc3370.py:140-144 -/,
   .update (Py.map 14 "rfc5751.smimeCapabilityMap") Rfc3370._smimeCapabilityMapUpdate /- rfc3370.py:146 -/]

/-- ASN.1 types rfc3370.py binds at module level (final version of each name), plus nested classes. -/
def classes : List (String × Py.Obj) :=
  [("rfc3370.AlgorithmIdentifier", Rfc3370.AlgorithmIdentifier),
   ("rfc3370.DHPublicKey", Rfc3370.DHPublicKey),
   ("rfc3370.DomainParameters", Rfc3370.DomainParameters),
   ("rfc3370.DHDomainParameters", Rfc3370.DHDomainParameters),
   ("rfc3370.Dss_Parms", Rfc3370.Dss_Parms),
   ("rfc3370.Dss_Sig_Value", Rfc3370.Dss_Sig_Value),
   ("rfc3370.RSAPublicKey", Rfc3370.RSAPublicKey),
   ("rfc3370.ValidationParms", Rfc3370.ValidationParms),
   ("rfc3370.CBCParameter", Rfc3370.CBCParameter),
   ("rfc3370.KeyWrapAlgorithm", Rfc3370.KeyWrapAlgorithm),
   ("rfc3370.RC2_CBC_Parameter", Rfc3370.RC2_CBC_Parameter),
   ("rfc3370.RC2CBCParameter", Rfc3370.RC2CBCParameter),
   ("rfc3370.PBKDF2_params", Rfc3370.PBKDF2_params),
   ("rfc3370.RC2ParameterVersion", Rfc3370.RC2ParameterVersion),
   ("rfc3370.RC2wrapParameter", Rfc3370.RC2wrapParameter),
   ("rfc3370.Dss_Pub_Key", Rfc3370.Dss_Pub_Key)]

/-- pyasn1 instances rfc3370.py binds at module level. -/
def objects : List (String × Py.Obj) :=
  [("rfc3370.dhpublicnumber", Rfc3370.dhpublicnumber),
   ("rfc3370.dh_public_number", Rfc3370.dh_public_number),
   ("rfc3370.md5", Rfc3370.md5),
   ("rfc3370.md5WithRSAEncryption", Rfc3370.md5WithRSAEncryption),
   ("rfc3370.rsaEncryption", Rfc3370.rsaEncryption),
   ("rfc3370.id_dsa", Rfc3370.id_dsa),
   ("rfc3370.id_dsa_with_sha1", Rfc3370.id_dsa_with_sha1),
   ("rfc3370.id_sha1", Rfc3370.id_sha1),
   ("rfc3370.sha_1", Rfc3370.sha_1),
   ("rfc3370.sha1WithRSAEncryption", Rfc3370.sha1WithRSAEncryption),
   ("rfc3370.id_alg_CMS3DESwrap", Rfc3370.id_alg_CMS3DESwrap),
   ("rfc3370.des_EDE3_CBC", Rfc3370.des_EDE3_CBC),
   ("rfc3370.des_ede3_cbc", Rfc3370.des_ede3_cbc),
   ("rfc3370.rc2CBC", Rfc3370.rc2CBC),
   ("rfc3370.rc2_cbc", Rfc3370.rc2_cbc),
   ("rfc3370.id_PBKDF2", Rfc3370.id_PBKDF2),
   ("rfc3370.hMAC_SHA1", Rfc3370.hMAC_SHA1),
   ("rfc3370.id_alg_ESDH", Rfc3370.id_alg_ESDH),
   ("rfc3370.id_alg_SSDH", Rfc3370.id_alg_SSDH),
   ("rfc3370.id_alg_CMSRC2wrap", Rfc3370.id_alg_CMSRC2wrap)]

/-- pyasn1 instances rfc3370.py fills in by item assignment. -/
def protos : List (String × Py.Proto) :=
  []

/-- Every place of rfc3370.py that instantiates a class of the package: where, the class as it is
at that point, and the class as it is when the import has finished. -/
def snapshots : List Py.Snapshot :=
  [⟨"rfc3370.py:130", Rfc3370.RC2wrapParameter, Rfc3370.RC2wrapParameter⟩,
   ⟨"rfc3370.py:131", Rfc3370.KeyWrapAlgorithm, Rfc3370.KeyWrapAlgorithm⟩,
   ⟨"rfc3370.py:132", Rfc3370.KeyWrapAlgorithm, Rfc3370.KeyWrapAlgorithm⟩,
   ⟨"rfc3370.py:141", Rfc3370.RC2wrapParameter, Rfc3370.RC2wrapParameter⟩,
   ⟨"rfc3370.py:142", Rfc3370.KeyWrapAlgorithm, Rfc3370.KeyWrapAlgorithm⟩,
   ⟨"rfc3370.py:143", Rfc3370.KeyWrapAlgorithm, Rfc3370.KeyWrapAlgorithm⟩]

/-- Functions rfc3370.py defines. -/
def builders : List (String × (List Py.OidArg → Py.Obj)) :=
  []

def asModule : Py.Module :=
  { id := (Py.mod 37 "rfc3370"), imports := imports, effects := effects, classes := classes, objects := objects, protos := protos, snapshots := snapshots, builders := builders }

end Rfc3370
end Verif
