import Verif.Spec.Grade
import Verif.Gen.Rfc6955
import Verif.Std.Rfc3279
import Verif.Std.Rfc5652

/-! The ASN.1 of tools/std/rfc6955.asn1 (generated by tools/stdgen.py). -/

namespace Verif
namespace Std
namespace Rfc6955

open Asn1 Spec.X680

/-- `MessageDigest ::=` -/
def MessageDigest : Ty :=
  OCTET_STRING

/-- `DhSigStatic ::=` -/
def DhSigStatic : Ty :=
  SEQUENCE [
    optional "issuerAndSerial" Std.Rfc5652.IssuerAndSerialNumber,
    mandatory "hashValue" MessageDigest]

/-- Classes of rfc6955.py and the types of the standard they implement. -/
def entries : List Entry :=
  [⟨"rfc6955.MessageDigest", Verif.Rfc6955.MessageDigest, MessageDigest, .same, false⟩,
   ⟨"rfc6955.IssuerAndSerialNumber", Verif.Rfc6955.IssuerAndSerialNumber, Std.Rfc5652.IssuerAndSerialNumber, .same, false⟩,
   ⟨"rfc6955.Dss_Sig_Value", Verif.Rfc6955.Dss_Sig_Value, Std.Rfc3279.Dss_Sig_Value, .same, false⟩,
   ⟨"rfc6955.DomainParameters", Verif.Rfc6955.DomainParameters, Std.Rfc3279.DomainParameters, .same, false⟩,
   ⟨"rfc6955.DhSigStatic", Verif.Rfc6955.DhSigStatic, DhSigStatic, .same, false⟩]

/-- Classes of rfc6955.py the transcription of the standard has no type for. -/
def beyond : List String :=
  []

/-- Constants of rfc6955.py and the values the standard gives them. -/
def constants : List Constant :=
  [⟨"rfc6955.id_pkix", Verif.Rfc6955.id_pkix, OBJECT_IDENTIFIER, .oid [1, 3, 6, 1, 5, 5, 7], true⟩,
   ⟨"rfc6955.id_dh_sig_hmac_sha1", Verif.Rfc6955.id_dh_sig_hmac_sha1, OBJECT_IDENTIFIER, .oid [1, 3, 6, 1, 5, 5, 7, 6, 3], true⟩,
   ⟨"rfc6955.id_dhPop_static_sha1_hmac_sha1", Verif.Rfc6955.id_dhPop_static_sha1_hmac_sha1, OBJECT_IDENTIFIER, .oid [1, 3, 6, 1, 5, 5, 7, 6, 3], true⟩,
   ⟨"rfc6955.id_alg_dh_pop", Verif.Rfc6955.id_alg_dh_pop, OBJECT_IDENTIFIER, .oid [1, 3, 6, 1, 5, 5, 7, 6, 4], true⟩,
   ⟨"rfc6955.id_alg_dhPop_sha1", Verif.Rfc6955.id_alg_dhPop_sha1, OBJECT_IDENTIFIER, .oid [1, 3, 6, 1, 5, 5, 7, 6, 4], true⟩,
   ⟨"rfc6955.id_alg_dhPop_sha224", Verif.Rfc6955.id_alg_dhPop_sha224, OBJECT_IDENTIFIER, .oid [1, 3, 6, 1, 5, 5, 7, 6, 5], true⟩,
   ⟨"rfc6955.id_alg_dhPop_sha256", Verif.Rfc6955.id_alg_dhPop_sha256, OBJECT_IDENTIFIER, .oid [1, 3, 6, 1, 5, 5, 7, 6, 6], true⟩,
   ⟨"rfc6955.id_alg_dhPop_sha384", Verif.Rfc6955.id_alg_dhPop_sha384, OBJECT_IDENTIFIER, .oid [1, 3, 6, 1, 5, 5, 7, 6, 7], true⟩,
   ⟨"rfc6955.id_alg_dhPop_sha512", Verif.Rfc6955.id_alg_dhPop_sha512, OBJECT_IDENTIFIER, .oid [1, 3, 6, 1, 5, 5, 7, 6, 8], true⟩,
   ⟨"rfc6955.id_alg_dhPop_static_sha224_hmac_sha224", Verif.Rfc6955.id_alg_dhPop_static_sha224_hmac_sha224, OBJECT_IDENTIFIER, .oid [1, 3, 6, 1, 5, 5, 7, 6, 15], true⟩,
   ⟨"rfc6955.id_alg_dhPop_static_sha256_hmac_sha256", Verif.Rfc6955.id_alg_dhPop_static_sha256_hmac_sha256, OBJECT_IDENTIFIER, .oid [1, 3, 6, 1, 5, 5, 7, 6, 16], true⟩,
   ⟨"rfc6955.id_alg_dhPop_static_sha384_hmac_sha384", Verif.Rfc6955.id_alg_dhPop_static_sha384_hmac_sha384, OBJECT_IDENTIFIER, .oid [1, 3, 6, 1, 5, 5, 7, 6, 17], true⟩,
   ⟨"rfc6955.id_alg_dhPop_static_sha512_hmac_sha512", Verif.Rfc6955.id_alg_dhPop_static_sha512_hmac_sha512, OBJECT_IDENTIFIER, .oid [1, 3, 6, 1, 5, 5, 7, 6, 18], true⟩,
   ⟨"rfc6955.id_alg_ecdhPop_static_sha224_hmac_sha224", Verif.Rfc6955.id_alg_ecdhPop_static_sha224_hmac_sha224, OBJECT_IDENTIFIER, .oid [1, 3, 6, 1, 5, 5, 7, 6, 25], true⟩,
   ⟨"rfc6955.id_alg_ecdhPop_static_sha256_hmac_sha256", Verif.Rfc6955.id_alg_ecdhPop_static_sha256_hmac_sha256, OBJECT_IDENTIFIER, .oid [1, 3, 6, 1, 5, 5, 7, 6, 26], true⟩,
   ⟨"rfc6955.id_alg_ecdhPop_static_sha384_hmac_sha384", Verif.Rfc6955.id_alg_ecdhPop_static_sha384_hmac_sha384, OBJECT_IDENTIFIER, .oid [1, 3, 6, 1, 5, 5, 7, 6, 27], true⟩,
   ⟨"rfc6955.id_alg_ecdhPop_static_sha512_hmac_sha512", Verif.Rfc6955.id_alg_ecdhPop_static_sha512_hmac_sha512, OBJECT_IDENTIFIER, .oid [1, 3, 6, 1, 5, 5, 7, 6, 28], true⟩]

/-- Constants of rfc6955.py the transcription of the standard has no value for. -/
def others : List String :=
  []

def standard : Standard := ⟨Verif.Rfc6955.asModule, entries, beyond, constants, others⟩

end Rfc6955
end Std
end Verif
