import Verif.Py.Obj
import Verif.Gen.Rfc3279
import Verif.Gen.Rfc5280

/-! Transcription of /repo/pyasn1_modules/rfc5480.py (generated by tools/gen.py). -/

namespace Verif
namespace Rfc5480

/-- rfc5480.py:26 alias of `rfc3279.DHPublicKey` -/
def DHPublicKey : Py.Obj :=
  Rfc3279.DHPublicKey

/-- rfc5480.py:28 alias of `rfc3279.DSAPublicKey` -/
def DSAPublicKey : Py.Obj :=
  Rfc3279.DSAPublicKey

/-- rfc5480.py:30 alias of `rfc3279.ValidationParms` -/
def ValidationParms : Py.Obj :=
  Rfc3279.ValidationParms

/-- rfc5480.py:32 alias of `rfc3279.DomainParameters` -/
def DomainParameters : Py.Obj :=
  Rfc3279.DomainParameters

/-- rfc5480.py:34 alias of `rfc3279.ECDSA_Sig_Value` -/
def ECDSA_Sig_Value : Py.Obj :=
  Rfc3279.ECDSA_Sig_Value

/-- rfc5480.py:36 alias of `rfc3279.ECPoint` -/
def ECPoint : Py.Obj :=
  Rfc3279.ECPoint

/-- rfc5480.py:38 alias of `rfc3279.KEA_Parms_Id` -/
def KEA_Parms_Id : Py.Obj :=
  Rfc3279.KEA_Parms_Id

/-- rfc5480.py:40 alias of `rfc3279.RSAPublicKey` -/
def RSAPublicKey : Py.Obj :=
  Rfc3279.RSAPublicKey

/-- rfc5480.py:45 alias of `rfc3279.Dss_Parms` -/
def DSS_Parms : Py.Obj :=
  Rfc3279.Dss_Parms

/-- rfc5480.py:47 alias of `rfc3279.Dss_Sig_Value` -/
def DSA_Sig_Value : Py.Obj :=
  Rfc3279.Dss_Sig_Value

/-- rfc5480.py:53-54 `class ECParameters(univ.Choice)` -/
def ECParameters__0 : Py.Obj :=
  Py.univ.Choice

/-- rfc5480.py:56-58 `ECParameters.componentType = ...` -/
def ECParameters : Py.Obj :=
  Rfc5480.ECParameters__0.setComponentType (Py.NamedTypes [
    Py.NamedType "namedCurve" Py.univ.ObjectIdentifier.call])

/-- rfc5480.py:63 -/
def id_md2 : Py.Obj :=
  (Py.univ.ObjectIdentifier.call.callArcs [1, 2, 840, 113549, 2, 2])

/-- rfc5480.py:65 -/
def id_md5 : Py.Obj :=
  (Py.univ.ObjectIdentifier.call.callArcs [1, 2, 840, 113549, 2, 5])

/-- rfc5480.py:67 -/
def id_sha1 : Py.Obj :=
  (Py.univ.ObjectIdentifier.call.callArcs [1, 3, 14, 3, 2, 26])

/-- rfc5480.py:69 -/
def id_sha224 : Py.Obj :=
  (Py.univ.ObjectIdentifier.call.callArcs [2, 16, 840, 1, 101, 3, 4, 2, 4])

/-- rfc5480.py:71 -/
def id_sha256 : Py.Obj :=
  (Py.univ.ObjectIdentifier.call.callArcs [2, 16, 840, 1, 101, 3, 4, 2, 1])

/-- rfc5480.py:73 -/
def id_sha384 : Py.Obj :=
  (Py.univ.ObjectIdentifier.call.callArcs [2, 16, 840, 1, 101, 3, 4, 2, 2])

/-- rfc5480.py:75 -/
def id_sha512 : Py.Obj :=
  (Py.univ.ObjectIdentifier.call.callArcs [2, 16, 840, 1, 101, 3, 4, 2, 3])

/-- rfc5480.py:80 -/
def rsaEncryption : Py.Obj :=
  (Py.univ.ObjectIdentifier.call.callArcs [1, 2, 840, 113549, 1, 1, 1])

/-- rfc5480.py:85 -/
def id_dsa : Py.Obj :=
  (Py.univ.ObjectIdentifier.call.callArcs [1, 2, 840, 10040, 4, 1])

/-- rfc5480.py:90 -/
def dhpublicnumber : Py.Obj :=
  (Py.univ.ObjectIdentifier.call.callArcs [1, 2, 840, 10046, 2, 1])

/-- rfc5480.py:94 -/
def id_keyExchangeAlgorithm : Py.Obj :=
  (Py.univ.ObjectIdentifier.call.callArcs [2, 16, 840, 1, 101, 2, 1, 1, 22])

/-- rfc5480.py:100 -/
def id_ecPublicKey : Py.Obj :=
  (Py.univ.ObjectIdentifier.call.callArcs [1, 2, 840, 10045, 2, 1])

/-- rfc5480.py:102 -/
def id_ecDH : Py.Obj :=
  (Py.univ.ObjectIdentifier.call.callArcs [1, 3, 132, 1, 12])

/-- rfc5480.py:104 -/
def id_ecMQV : Py.Obj :=
  (Py.univ.ObjectIdentifier.call.callArcs [1, 3, 132, 1, 13])

/-- rfc5480.py:109 -/
def md2WithRSAEncryption : Py.Obj :=
  (Py.univ.ObjectIdentifier.call.callArcs [1, 2, 840, 113549, 1, 1, 2])

/-- rfc5480.py:111 -/
def md5WithRSAEncryption : Py.Obj :=
  (Py.univ.ObjectIdentifier.call.callArcs [1, 2, 840, 113549, 1, 1, 4])

/-- rfc5480.py:113 -/
def sha1WithRSAEncryption : Py.Obj :=
  (Py.univ.ObjectIdentifier.call.callArcs [1, 2, 840, 113549, 1, 1, 5])

/-- rfc5480.py:118 -/
def id_dsa_with_sha1 : Py.Obj :=
  (Py.univ.ObjectIdentifier.call.callArcs [1, 2, 840, 10040, 4, 3])

/-- rfc5480.py:120 -/
def id_dsa_with_sha224 : Py.Obj :=
  (Py.univ.ObjectIdentifier.call.callArcs [2, 16, 840, 1, 101, 3, 4, 3, 1])

/-- rfc5480.py:122 -/
def id_dsa_with_sha256 : Py.Obj :=
  (Py.univ.ObjectIdentifier.call.callArcs [2, 16, 840, 1, 101, 3, 4, 3, 2])

/-- rfc5480.py:127 -/
def ecdsa_with_SHA1 : Py.Obj :=
  (Py.univ.ObjectIdentifier.call.callArcs [1, 2, 840, 10045, 4, 1])

/-- rfc5480.py:129 -/
def ecdsa_with_SHA224 : Py.Obj :=
  (Py.univ.ObjectIdentifier.call.callArcs [1, 2, 840, 10045, 4, 3, 1])

/-- rfc5480.py:131 -/
def ecdsa_with_SHA256 : Py.Obj :=
  (Py.univ.ObjectIdentifier.call.callArcs [1, 2, 840, 10045, 4, 3, 2])

/-- rfc5480.py:133 -/
def ecdsa_with_SHA384 : Py.Obj :=
  (Py.univ.ObjectIdentifier.call.callArcs [1, 2, 840, 10045, 4, 3, 3])

/-- rfc5480.py:135 -/
def ecdsa_with_SHA512 : Py.Obj :=
  (Py.univ.ObjectIdentifier.call.callArcs [1, 2, 840, 10045, 4, 3, 4])

/-- rfc5480.py:140 -/
def secp192r1 : Py.Obj :=
  (Py.univ.ObjectIdentifier.call.callArcs [1, 2, 840, 10045, 3, 1, 1])

/-- rfc5480.py:142 -/
def sect163k1 : Py.Obj :=
  (Py.univ.ObjectIdentifier.call.callArcs [1, 3, 132, 0, 1])

/-- rfc5480.py:144 -/
def sect163r2 : Py.Obj :=
  (Py.univ.ObjectIdentifier.call.callArcs [1, 3, 132, 0, 15])

/-- rfc5480.py:146 -/
def secp224r1 : Py.Obj :=
  (Py.univ.ObjectIdentifier.call.callArcs [1, 3, 132, 0, 33])

/-- rfc5480.py:148 -/
def sect233k1 : Py.Obj :=
  (Py.univ.ObjectIdentifier.call.callArcs [1, 3, 132, 0, 26])

/-- rfc5480.py:150 -/
def sect233r1 : Py.Obj :=
  (Py.univ.ObjectIdentifier.call.callArcs [1, 3, 132, 0, 27])

/-- rfc5480.py:152 -/
def secp256r1 : Py.Obj :=
  (Py.univ.ObjectIdentifier.call.callArcs [1, 2, 840, 10045, 3, 1, 7])

/-- rfc5480.py:154 -/
def sect283k1 : Py.Obj :=
  (Py.univ.ObjectIdentifier.call.callArcs [1, 3, 132, 0, 16])

/-- rfc5480.py:156 -/
def sect283r1 : Py.Obj :=
  (Py.univ.ObjectIdentifier.call.callArcs [1, 3, 132, 0, 17])

/-- rfc5480.py:158 -/
def secp384r1 : Py.Obj :=
  (Py.univ.ObjectIdentifier.call.callArcs [1, 3, 132, 0, 34])

/-- rfc5480.py:160 -/
def sect409k1 : Py.Obj :=
  (Py.univ.ObjectIdentifier.call.callArcs [1, 3, 132, 0, 36])

/-- rfc5480.py:162 -/
def sect409r1 : Py.Obj :=
  (Py.univ.ObjectIdentifier.call.callArcs [1, 3, 132, 0, 37])

/-- rfc5480.py:164 -/
def secp521r1 : Py.Obj :=
  (Py.univ.ObjectIdentifier.call.callArcs [1, 3, 132, 0, 35])

/-- rfc5480.py:166 -/
def sect571k1 : Py.Obj :=
  (Py.univ.ObjectIdentifier.call.callArcs [1, 3, 132, 0, 38])

/-- rfc5480.py:168 -/
def sect571r1 : Py.Obj :=
  (Py.univ.ObjectIdentifier.call.callArcs [1, 3, 132, 0, 39])

/-- rfc5480.py:174-185 -/
def _algorithmIdentifierMapUpdate : Py.Entries :=
  [(Rfc5480.rsaEncryption.value, Py.univ.Null.call.ty),
    (Rfc5480.md2WithRSAEncryption.value, Py.univ.Null.call.ty),
    (Rfc5480.md5WithRSAEncryption.value, Py.univ.Null.call.ty),
    (Rfc5480.sha1WithRSAEncryption.value, Py.univ.Null.call.ty),
    (Rfc5480.id_dsa.value, Rfc5480.DSS_Parms.call.ty),
    (Rfc5480.dhpublicnumber.value, Rfc5480.DomainParameters.call.ty),
    (Rfc5480.id_keyExchangeAlgorithm.value, Rfc5480.KEA_Parms_Id.call.ty),
    (Rfc5480.id_ecPublicKey.value, Rfc5480.ECParameters.call.ty),
    (Rfc5480.id_ecDH.value, Rfc5480.ECParameters.call.ty),
    (Rfc5480.id_ecMQV.value, Rfc5480.ECParameters.call.ty)]

/-- Modules of this package imported by rfc5480.py, in textual order. -/
def imports : List Py.Ident :=
  [(Py.mod 33 "rfc3279"), (Py.mod 15 "rfc5280")]

/-- Dictionary operations executed when rfc5480.py is imported, in program order. -/
def effects : List Py.Effect :=
  [.create (Py.map 82 "rfc5480._algorithmIdentifierMapUpdate") Rfc5480._algorithmIdentifierMapUpdate /- rfc5480.py:174-185 -/,
   .update (Py.map 3 "rfc5280.algorithmIdentifierMap") Rfc5480._algorithmIdentifierMapUpdate /- rfc5480.py:190 -/]

/-- ASN.1 types rfc5480.py binds at module level (final version of each name), plus nested classes. -/
def classes : List (String × Py.Obj) :=
  [("rfc5480.DHPublicKey", Rfc5480.DHPublicKey),
   ("rfc5480.DSAPublicKey", Rfc5480.DSAPublicKey),
   ("rfc5480.ValidationParms", Rfc5480.ValidationParms),
   ("rfc5480.DomainParameters", Rfc5480.DomainParameters),
   ("rfc5480.ECDSA_Sig_Value", Rfc5480.ECDSA_Sig_Value),
   ("rfc5480.ECPoint", Rfc5480.ECPoint),
   ("rfc5480.KEA_Parms_Id", Rfc5480.KEA_Parms_Id),
   ("rfc5480.RSAPublicKey", Rfc5480.RSAPublicKey),
   ("rfc5480.DSS_Parms", Rfc5480.DSS_Parms),
   ("rfc5480.DSA_Sig_Value", Rfc5480.DSA_Sig_Value),
   ("rfc5480.ECParameters", Rfc5480.ECParameters)]

/-- pyasn1 instances rfc5480.py binds at module level. -/
def objects : List (String × Py.Obj) :=
  [("rfc5480.id_md2", Rfc5480.id_md2),
   ("rfc5480.id_md5", Rfc5480.id_md5),
   ("rfc5480.id_sha1", Rfc5480.id_sha1),
   ("rfc5480.id_sha224", Rfc5480.id_sha224),
   ("rfc5480.id_sha256", Rfc5480.id_sha256),
   ("rfc5480.id_sha384", Rfc5480.id_sha384),
   ("rfc5480.id_sha512", Rfc5480.id_sha512),
   ("rfc5480.rsaEncryption", Rfc5480.rsaEncryption),
   ("rfc5480.id_dsa", Rfc5480.id_dsa),
   ("rfc5480.dhpublicnumber", Rfc5480.dhpublicnumber),
   ("rfc5480.id_keyExchangeAlgorithm", Rfc5480.id_keyExchangeAlgorithm),
   ("rfc5480.id_ecPublicKey", Rfc5480.id_ecPublicKey),
   ("rfc5480.id_ecDH", Rfc5480.id_ecDH),
   ("rfc5480.id_ecMQV", Rfc5480.id_ecMQV),
   ("rfc5480.md2WithRSAEncryption", Rfc5480.md2WithRSAEncryption),
   ("rfc5480.md5WithRSAEncryption", Rfc5480.md5WithRSAEncryption),
   ("rfc5480.sha1WithRSAEncryption", Rfc5480.sha1WithRSAEncryption),
   ("rfc5480.id_dsa_with_sha1", Rfc5480.id_dsa_with_sha1),
   ("rfc5480.id_dsa_with_sha224", Rfc5480.id_dsa_with_sha224),
   ("rfc5480.id_dsa_with_sha256", Rfc5480.id_dsa_with_sha256),
   ("rfc5480.ecdsa_with_SHA1", Rfc5480.ecdsa_with_SHA1),
   ("rfc5480.ecdsa_with_SHA224", Rfc5480.ecdsa_with_SHA224),
   ("rfc5480.ecdsa_with_SHA256", Rfc5480.ecdsa_with_SHA256),
   ("rfc5480.ecdsa_with_SHA384", Rfc5480.ecdsa_with_SHA384),
   ("rfc5480.ecdsa_with_SHA512", Rfc5480.ecdsa_with_SHA512),
   ("rfc5480.secp192r1", Rfc5480.secp192r1),
   ("rfc5480.sect163k1", Rfc5480.sect163k1),
   ("rfc5480.sect163r2", Rfc5480.sect163r2),
   ("rfc5480.secp224r1", Rfc5480.secp224r1),
   ("rfc5480.sect233k1", Rfc5480.sect233k1),
   ("rfc5480.sect233r1", Rfc5480.sect233r1),
   ("rfc5480.secp256r1", Rfc5480.secp256r1),
   ("rfc5480.sect283k1", Rfc5480.sect283k1),
   ("rfc5480.sect283r1", Rfc5480.sect283r1),
   ("rfc5480.secp384r1", Rfc5480.secp384r1),
   ("rfc5480.sect409k1", Rfc5480.sect409k1),
   ("rfc5480.sect409r1", Rfc5480.sect409r1),
   ("rfc5480.secp521r1", Rfc5480.secp521r1),
   ("rfc5480.sect571k1", Rfc5480.sect571k1),
   ("rfc5480.sect571r1", Rfc5480.sect571r1)]

/-- pyasn1 instances rfc5480.py fills in by item assignment. -/
def protos : List (String × Py.Proto) :=
  []

/-- Every place of rfc5480.py that instantiates a class of the package: where, the class as it is
at that point, and the class as it is when the import has finished. -/
def snapshots : List Py.Snapshot :=
  [⟨"rfc5480.py:179", Rfc5480.DSS_Parms, Rfc5480.DSS_Parms⟩,
   ⟨"rfc5480.py:180", Rfc5480.DomainParameters, Rfc5480.DomainParameters⟩,
   ⟨"rfc5480.py:181", Rfc5480.KEA_Parms_Id, Rfc5480.KEA_Parms_Id⟩,
   ⟨"rfc5480.py:182", Rfc5480.ECParameters, Rfc5480.ECParameters⟩,
   ⟨"rfc5480.py:183", Rfc5480.ECParameters, Rfc5480.ECParameters⟩,
   ⟨"rfc5480.py:184", Rfc5480.ECParameters, Rfc5480.ECParameters⟩]

/-- Functions rfc5480.py defines. -/
def builders : List (String × (List Py.OidArg → Py.Obj)) :=
  []

def asModule : Py.Module :=
  { id := (Py.mod 34 "rfc5480"), imports := imports, effects := effects, classes := classes, objects := objects, protos := protos, snapshots := snapshots, builders := builders }

end Rfc5480
end Verif
