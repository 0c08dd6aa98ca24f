import Verif.Spec.Grade
import Verif.Gen.Rfc8702
import Verif.Std.Rfc5280

/-! The ASN.1 of tools/std/rfc8702.asn1 (generated by tools/stdgen.py). -/

namespace Verif
namespace Std
namespace Rfc8702

open Asn1 Spec.X680

/-- `KMACwithSHAKE128-params ::=` -/
def KMACwithSHAKE128_params : Ty :=
  SEQUENCE [
    default "kMACOutputLength" INTEGER (.int 256),
    default "customizationString" OCTET_STRING (.octets [])]

/-- `KMACwithSHAKE256-params ::=` -/
def KMACwithSHAKE256_params : Ty :=
  SEQUENCE [
    default "kMACOutputLength" INTEGER (.int 512),
    default "customizationString" OCTET_STRING (.octets [])]

/-- Classes of rfc8702.py and the types of the standard they implement. -/
def entries : List Entry :=
  [⟨"rfc8702.AlgorithmIdentifier", Verif.Rfc8702.AlgorithmIdentifier, Std.Rfc5280.AlgorithmIdentifier, .same, false⟩,
   ⟨"rfc8702.KMACwithSHAKE128_params", Verif.Rfc8702.KMACwithSHAKE128_params, KMACwithSHAKE128_params, .same, false⟩,
   ⟨"rfc8702.KMACwithSHAKE256_params", Verif.Rfc8702.KMACwithSHAKE256_params, KMACwithSHAKE256_params, .same, false⟩]

/-- Classes of rfc8702.py the transcription of the standard has no type for. -/
def beyond : List String :=
  []

/-- Constants of rfc8702.py and the values the standard gives them. -/
def constants : List Constant :=
  [⟨"rfc8702.id_shake128", Verif.Rfc8702.id_shake128, OBJECT_IDENTIFIER, .oid [2, 16, 840, 1, 101, 3, 4, 2, 11], true⟩,
   ⟨"rfc8702.id_shake256", Verif.Rfc8702.id_shake256, OBJECT_IDENTIFIER, .oid [2, 16, 840, 1, 101, 3, 4, 2, 12], true⟩,
   ⟨"rfc8702.id_RSASSA_PSS_SHAKE128", Verif.Rfc8702.id_RSASSA_PSS_SHAKE128, OBJECT_IDENTIFIER, .oid [1, 3, 6, 1, 5, 5, 7, 6, 30], true⟩,
   ⟨"rfc8702.id_RSASSA_PSS_SHAKE256", Verif.Rfc8702.id_RSASSA_PSS_SHAKE256, OBJECT_IDENTIFIER, .oid [1, 3, 6, 1, 5, 5, 7, 6, 31], true⟩,
   ⟨"rfc8702.id_ecdsa_with_shake128", Verif.Rfc8702.id_ecdsa_with_shake128, OBJECT_IDENTIFIER, .oid [1, 3, 6, 1, 5, 5, 7, 6, 32], true⟩,
   ⟨"rfc8702.id_ecdsa_with_shake256", Verif.Rfc8702.id_ecdsa_with_shake256, OBJECT_IDENTIFIER, .oid [1, 3, 6, 1, 5, 5, 7, 6, 33], true⟩,
   ⟨"rfc8702.id_KMACWithSHAKE128", Verif.Rfc8702.id_KMACWithSHAKE128, OBJECT_IDENTIFIER, .oid [2, 16, 840, 1, 101, 3, 4, 2, 19], true⟩,
   ⟨"rfc8702.id_KMACWithSHAKE256", Verif.Rfc8702.id_KMACWithSHAKE256, OBJECT_IDENTIFIER, .oid [2, 16, 840, 1, 101, 3, 4, 2, 20], true⟩]

/-- Constants of rfc8702.py the transcription of the standard has no value for. -/
def others : List String :=
  ["rfc8702.pk_rsaSSA_PSS_SHAKE128",
   "rfc8702.pk_rsaSSA_PSS_SHAKE256",
   "rfc8702.pk_ec",
   "rfc8702.mda_shake128",
   "rfc8702.mda_shake256",
   "rfc8702.sa_rSASSA_PSS_SHAKE128",
   "rfc8702.sa_rSASSA_PSS_SHAKE256",
   "rfc8702.sa_ecdsa_with_shake128",
   "rfc8702.sa_ecdsa_with_shake256",
   "rfc8702.maca_KMACwithSHAKE128",
   "rfc8702.maca_KMACwithSHAKE256"]

def standard : Standard := ⟨Verif.Rfc8702.asModule, entries, beyond, constants, others⟩

end Rfc8702
end Std
end Verif
