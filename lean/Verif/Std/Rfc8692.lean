import Verif.Spec.Grade
import Verif.Gen.Rfc8692

/-! The ASN.1 of tools/std/rfc8692.asn1 (generated by tools/stdgen.py). -/

namespace Verif
namespace Std
namespace Rfc8692

open Asn1 Spec.X680

/-- Classes of rfc8692.py and the types of the standard they implement. -/
def entries : List Entry :=
  []

/-- Classes of rfc8692.py the transcription of the standard has no type for. -/
def beyond : List String :=
  []

/-- Constants of rfc8692.py and the values the standard gives them. -/
def constants : List Constant :=
  [⟨"rfc8692.id_shake128", Verif.Rfc8692.id_shake128, OBJECT_IDENTIFIER, .oid [2, 16, 840, 1, 101, 3, 4, 2, 11], true⟩,
   ⟨"rfc8692.id_shake256", Verif.Rfc8692.id_shake256, OBJECT_IDENTIFIER, .oid [2, 16, 840, 1, 101, 3, 4, 2, 12], true⟩,
   ⟨"rfc8692.id_RSASSA_PSS_SHAKE128", Verif.Rfc8692.id_RSASSA_PSS_SHAKE128, OBJECT_IDENTIFIER, .oid [1, 3, 6, 1, 5, 5, 7, 6, 30], true⟩,
   ⟨"rfc8692.id_RSASSA_PSS_SHAKE256", Verif.Rfc8692.id_RSASSA_PSS_SHAKE256, OBJECT_IDENTIFIER, .oid [1, 3, 6, 1, 5, 5, 7, 6, 31], true⟩,
   ⟨"rfc8692.id_ecdsa_with_shake128", Verif.Rfc8692.id_ecdsa_with_shake128, OBJECT_IDENTIFIER, .oid [1, 3, 6, 1, 5, 5, 7, 6, 32], true⟩,
   ⟨"rfc8692.id_ecdsa_with_shake256", Verif.Rfc8692.id_ecdsa_with_shake256, OBJECT_IDENTIFIER, .oid [1, 3, 6, 1, 5, 5, 7, 6, 33], true⟩]

/-- Constants of rfc8692.py the transcription of the standard has no value for. -/
def others : List String :=
  ["rfc8692.pk_rsaSSA_PSS_SHAKE128",
   "rfc8692.pk_rsaSSA_PSS_SHAKE256",
   "rfc8692.pk_ec",
   "rfc8692.mda_shake128",
   "rfc8692.mda_shake256",
   "rfc8692.sa_rSASSA_PSS_SHAKE128",
   "rfc8692.sa_rSASSA_PSS_SHAKE256",
   "rfc8692.sa_ecdsa_with_shake128",
   "rfc8692.sa_ecdsa_with_shake256"]

def standard : Standard := ⟨Verif.Rfc8692.asModule, entries, beyond, constants, others⟩

end Rfc8692
end Std
end Verif
