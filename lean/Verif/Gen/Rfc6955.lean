import Verif.Py.Obj
import Verif.Gen.Rfc3279
import Verif.Gen.Rfc5280
import Verif.Gen.Rfc5652

/-! Transcription of /repo/pyasn1_modules/rfc6955.py (generated by tools/gen.py). -/

namespace Verif
namespace Rfc6955

/-- rfc6955.py:25 alias of `rfc5652.MessageDigest` -/
def MessageDigest : Py.Obj :=
  Rfc5652.MessageDigest

/-- rfc6955.py:27 alias of `rfc5652.IssuerAndSerialNumber` -/
def IssuerAndSerialNumber : Py.Obj :=
  Rfc5652.IssuerAndSerialNumber

/-- rfc6955.py:32 alias of `rfc5280.id_pkix` -/
def id_pkix : Py.Obj :=
  Rfc5280.id_pkix

/-- rfc6955.py:37 alias of `rfc3279.Dss_Sig_Value` -/
def Dss_Sig_Value : Py.Obj :=
  Rfc3279.Dss_Sig_Value

/-- rfc6955.py:39 alias of `rfc3279.DomainParameters` -/
def DomainParameters : Py.Obj :=
  Rfc3279.DomainParameters

/-- rfc6955.py:44-48 `class DhSigStatic(univ.Sequence)` -/
def DhSigStatic : Py.Obj :=
  Py.univ.Sequence.setComponentType (Py.NamedTypes [
    Py.OptionalNamedType "issuerAndSerial" Rfc6955.IssuerAndSerialNumber.call,
    Py.NamedType "hashValue" Rfc6955.MessageDigest.call])

/-- rfc6955.py:53 -/
def id_dh_sig_hmac_sha1 : Py.Obj :=
  (Rfc6955.id_pkix.addArcs [6, 3])

/-- rfc6955.py:55 -/
def id_dhPop_static_sha1_hmac_sha1 : Py.Obj :=
  (Py.univ.ObjectIdentifier.call.callObj Rfc6955.id_dh_sig_hmac_sha1)

/-- rfc6955.py:58 -/
def id_alg_dh_pop : Py.Obj :=
  (Rfc6955.id_pkix.addArcs [6, 4])

/-- rfc6955.py:60 -/
def id_alg_dhPop_sha1 : Py.Obj :=
  (Py.univ.ObjectIdentifier.call.callObj Rfc6955.id_alg_dh_pop)

/-- rfc6955.py:62 -/
def id_alg_dhPop_sha224 : Py.Obj :=
  (Rfc6955.id_pkix.addArcs [6, 5])

/-- rfc6955.py:64 -/
def id_alg_dhPop_sha256 : Py.Obj :=
  (Rfc6955.id_pkix.addArcs [6, 6])

/-- rfc6955.py:66 -/
def id_alg_dhPop_sha384 : Py.Obj :=
  (Rfc6955.id_pkix.addArcs [6, 7])

/-- rfc6955.py:68 -/
def id_alg_dhPop_sha512 : Py.Obj :=
  (Rfc6955.id_pkix.addArcs [6, 8])

/-- rfc6955.py:71 -/
def id_alg_dhPop_static_sha224_hmac_sha224 : Py.Obj :=
  (Rfc6955.id_pkix.addArcs [6, 15])

/-- rfc6955.py:73 -/
def id_alg_dhPop_static_sha256_hmac_sha256 : Py.Obj :=
  (Rfc6955.id_pkix.addArcs [6, 16])

/-- rfc6955.py:75 -/
def id_alg_dhPop_static_sha384_hmac_sha384 : Py.Obj :=
  (Rfc6955.id_pkix.addArcs [6, 17])

/-- rfc6955.py:77 -/
def id_alg_dhPop_static_sha512_hmac_sha512 : Py.Obj :=
  (Rfc6955.id_pkix.addArcs [6, 18])

/-- rfc6955.py:80 -/
def id_alg_ecdhPop_static_sha224_hmac_sha224 : Py.Obj :=
  (Rfc6955.id_pkix.addArcs [6, 25])

/-- rfc6955.py:82 -/
def id_alg_ecdhPop_static_sha256_hmac_sha256 : Py.Obj :=
  (Rfc6955.id_pkix.addArcs [6, 26])

/-- rfc6955.py:84 -/
def id_alg_ecdhPop_static_sha384_hmac_sha384 : Py.Obj :=
  (Rfc6955.id_pkix.addArcs [6, 27])

/-- rfc6955.py:86 -/
def id_alg_ecdhPop_static_sha512_hmac_sha512 : Py.Obj :=
  (Rfc6955.id_pkix.addArcs [6, 28])

/-- rfc6955.py:91-106 -/
def _algorithmIdentifierMapUpdate : Py.Entries :=
  [(Rfc6955.id_alg_dh_pop.value, Rfc6955.DomainParameters.call.ty),
    (Rfc6955.id_alg_dhPop_sha224.value, Rfc6955.DomainParameters.call.ty),
    (Rfc6955.id_alg_dhPop_sha256.value, Rfc6955.DomainParameters.call.ty),
    (Rfc6955.id_alg_dhPop_sha384.value, Rfc6955.DomainParameters.call.ty),
    (Rfc6955.id_alg_dhPop_sha512.value, Rfc6955.DomainParameters.call.ty),
    (Rfc6955.id_dh_sig_hmac_sha1.value, (Py.univ.Null.call.callStr "").ty),
    (Rfc6955.id_alg_dhPop_static_sha224_hmac_sha224.value, (Py.univ.Null.call.callStr "").ty),
    (Rfc6955.id_alg_dhPop_static_sha256_hmac_sha256.value, (Py.univ.Null.call.callStr "").ty),
    (Rfc6955.id_alg_dhPop_static_sha384_hmac_sha384.value, (Py.univ.Null.call.callStr "").ty),
    (Rfc6955.id_alg_dhPop_static_sha512_hmac_sha512.value, (Py.univ.Null.call.callStr "").ty),
    (Rfc6955.id_alg_ecdhPop_static_sha224_hmac_sha224.value, (Py.univ.Null.call.callStr "").ty),
    (Rfc6955.id_alg_ecdhPop_static_sha256_hmac_sha256.value, (Py.univ.Null.call.callStr "").ty),
    (Rfc6955.id_alg_ecdhPop_static_sha384_hmac_sha384.value, (Py.univ.Null.call.callStr "").ty),
    (Rfc6955.id_alg_ecdhPop_static_sha512_hmac_sha512.value, (Py.univ.Null.call.callStr "").ty)]

/-- Modules of this package imported by rfc6955.py, in textual order. -/
def imports : List Py.Ident :=
  [(Py.mod 33 "rfc3279"), (Py.mod 15 "rfc5280"), (Py.mod 16 "rfc5652")]

/-- Dictionary operations executed when rfc6955.py is imported, in program order. -/
def effects : List Py.Effect :=
  [.create (Py.map 116 "rfc6955._algorithmIdentifierMapUpdate") Rfc6955._algorithmIdentifierMapUpdate /- rfc6955.py:91-106 -/,
   .update (Py.map 3 "rfc5280.algorithmIdentifierMap") Rfc6955._algorithmIdentifierMapUpdate /- rfc6955.py:108 -/]

/-- ASN.1 types rfc6955.py binds at module level (final version of each name), plus nested classes. -/
def classes : List (String × Py.Obj) :=
  [("rfc6955.MessageDigest", Rfc6955.MessageDigest),
   ("rfc6955.IssuerAndSerialNumber", Rfc6955.IssuerAndSerialNumber),
   ("rfc6955.Dss_Sig_Value", Rfc6955.Dss_Sig_Value),
   ("rfc6955.DomainParameters", Rfc6955.DomainParameters),
   ("rfc6955.DhSigStatic", Rfc6955.DhSigStatic)]

/-- pyasn1 instances rfc6955.py binds at module level. -/
def objects : List (String × Py.Obj) :=
  [("rfc6955.id_pkix", Rfc6955.id_pkix),
   ("rfc6955.id_dh_sig_hmac_sha1", Rfc6955.id_dh_sig_hmac_sha1),
   ("rfc6955.id_dhPop_static_sha1_hmac_sha1", Rfc6955.id_dhPop_static_sha1_hmac_sha1),
   ("rfc6955.id_alg_dh_pop", Rfc6955.id_alg_dh_pop),
   ("rfc6955.id_alg_dhPop_sha1", Rfc6955.id_alg_dhPop_sha1),
   ("rfc6955.id_alg_dhPop_sha224", Rfc6955.id_alg_dhPop_sha224),
   ("rfc6955.id_alg_dhPop_sha256", Rfc6955.id_alg_dhPop_sha256),
   ("rfc6955.id_alg_dhPop_sha384", Rfc6955.id_alg_dhPop_sha384),
   ("rfc6955.id_alg_dhPop_sha512", Rfc6955.id_alg_dhPop_sha512),
   ("rfc6955.id_alg_dhPop_static_sha224_hmac_sha224", Rfc6955.id_alg_dhPop_static_sha224_hmac_sha224),
   ("rfc6955.id_alg_dhPop_static_sha256_hmac_sha256", Rfc6955.id_alg_dhPop_static_sha256_hmac_sha256),
   ("rfc6955.id_alg_dhPop_static_sha384_hmac_sha384", Rfc6955.id_alg_dhPop_static_sha384_hmac_sha384),
   ("rfc6955.id_alg_dhPop_static_sha512_hmac_sha512", Rfc6955.id_alg_dhPop_static_sha512_hmac_sha512),
   ("rfc6955.id_alg_ecdhPop_static_sha224_hmac_sha224", Rfc6955.id_alg_ecdhPop_static_sha224_hmac_sha224),
   ("rfc6955.id_alg_ecdhPop_static_sha256_hmac_sha256", Rfc6955.id_alg_ecdhPop_static_sha256_hmac_sha256),
   ("rfc6955.id_alg_ecdhPop_static_sha384_hmac_sha384", Rfc6955.id_alg_ecdhPop_static_sha384_hmac_sha384),
   ("rfc6955.id_alg_ecdhPop_static_sha512_hmac_sha512", Rfc6955.id_alg_ecdhPop_static_sha512_hmac_sha512)]

/-- pyasn1 instances rfc6955.py fills in by item assignment. -/
def protos : List (String × Py.Proto) :=
  []

/-- Every place of rfc6955.py that instantiates a class of the package: where, the class as it is
at that point, and the class as it is when the import has finished. -/
def snapshots : List Py.Snapshot :=
  [⟨"rfc6955.py:46", Rfc6955.IssuerAndSerialNumber, Rfc6955.IssuerAndSerialNumber⟩,
   ⟨"rfc6955.py:47", Rfc6955.MessageDigest, Rfc6955.MessageDigest⟩,
   ⟨"rfc6955.py:92", Rfc6955.DomainParameters, Rfc6955.DomainParameters⟩,
   ⟨"rfc6955.py:93", Rfc6955.DomainParameters, Rfc6955.DomainParameters⟩,
   ⟨"rfc6955.py:94", Rfc6955.DomainParameters, Rfc6955.DomainParameters⟩,
   ⟨"rfc6955.py:95", Rfc6955.DomainParameters, Rfc6955.DomainParameters⟩,
   ⟨"rfc6955.py:96", Rfc6955.DomainParameters, Rfc6955.DomainParameters⟩]

/-- Functions rfc6955.py defines. -/
def builders : List (String × (List Py.OidArg → Py.Obj)) :=
  []

def asModule : Py.Module :=
  { id := (Py.mod 98 "rfc6955"), imports := imports, effects := effects, classes := classes, objects := objects, protos := protos, snapshots := snapshots, builders := builders }

end Rfc6955
end Verif
