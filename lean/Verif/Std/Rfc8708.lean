import Verif.Spec.Grade
import Verif.Gen.Rfc8708

/-! The ASN.1 of tools/std/rfc8708.asn1 (generated by tools/stdgen.py). -/

namespace Verif
namespace Std
namespace Rfc8708

open Asn1 Spec.X680

/-- `HSS-LMS-HashSig-PublicKey ::=` -/
def HSS_LMS_HashSig_PublicKey : Ty :=
  OCTET_STRING

/-- Classes of rfc8708.py and the types of the standard they implement. -/
def entries : List Entry :=
  [⟨"rfc8708.HSS_LMS_HashSig_PublicKey", Verif.Rfc8708.HSS_LMS_HashSig_PublicKey, HSS_LMS_HashSig_PublicKey, .same, false⟩]

/-- Classes of rfc8708.py the transcription of the standard has no type for. -/
def beyond : List String :=
  []

/-- Constants of rfc8708.py and the values the standard gives them. -/
def constants : List Constant :=
  [⟨"rfc8708.id_alg_hss_lms_hashsig", Verif.Rfc8708.id_alg_hss_lms_hashsig, OBJECT_IDENTIFIER, .oid [1, 2, 840, 113549, 1, 9, 16, 3, 17], true⟩,
   ⟨"rfc8708.id_alg_mts_hashsig", Verif.Rfc8708.id_alg_mts_hashsig, OBJECT_IDENTIFIER, .oid [1, 2, 840, 113549, 1, 9, 16, 3, 17], true⟩]

/-- Constants of rfc8708.py the transcription of the standard has no value for. -/
def others : List String :=
  ["rfc8708.sa_HSS_LMS_HashSig",
   "rfc8708.pk_HSS_LMS_HashSig"]

def standard : Standard := ⟨Verif.Rfc8708.asModule, entries, beyond, constants, others⟩

end Rfc8708
end Std
end Verif
