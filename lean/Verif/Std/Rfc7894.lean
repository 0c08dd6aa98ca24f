import Verif.Spec.Grade
import Verif.Gen.Rfc7894

/-! The ASN.1 of tools/std/rfc7894.asn1 (generated by tools/stdgen.py). -/

namespace Verif
namespace Std
namespace Rfc7894

open Asn1 Spec.X680

/-- Classes of rfc7894.py and the types of the standard they implement. -/
def entries : List Entry :=
  []

/-- Classes of rfc7894.py the transcription of the standard has no type for. -/
def beyond : List String :=
  ["rfc7894.Attribute",
   "rfc7894.DirectoryString"]

/-- Constants of rfc7894.py and the values the standard gives them. -/
def constants : List Constant :=
  [⟨"rfc7894.id_aa_otpChallenge", Verif.Rfc7894.id_aa_otpChallenge, OBJECT_IDENTIFIER, .oid [1, 2, 840, 113549, 1, 9, 16, 2, 56], true⟩,
   ⟨"rfc7894.ub_aa_otpChallenge", Verif.Rfc7894.ub_aa_otpChallenge, INTEGER, .int 255, true⟩,
   ⟨"rfc7894.id_aa_revocationChallenge", Verif.Rfc7894.id_aa_revocationChallenge, OBJECT_IDENTIFIER, .oid [1, 2, 840, 113549, 1, 9, 16, 2, 57], true⟩,
   ⟨"rfc7894.ub_aa_revocationChallenge", Verif.Rfc7894.ub_aa_revocationChallenge, INTEGER, .int 255, true⟩,
   ⟨"rfc7894.id_aa_estIdentityLinking", Verif.Rfc7894.id_aa_estIdentityLinking, OBJECT_IDENTIFIER, .oid [1, 2, 840, 113549, 1, 9, 16, 2, 58], true⟩,
   ⟨"rfc7894.ub_aa_est_identity_linking", Verif.Rfc7894.ub_aa_est_identity_linking, INTEGER, .int 255, true⟩]

/-- Constants of rfc7894.py the transcription of the standard has no value for. -/
def others : List String :=
  ["rfc7894.otpChallenge",
   "rfc7894.revocationChallenge",
   "rfc7894.estIdentityLinking"]

def standard : Standard := ⟨Verif.Rfc7894.asModule, entries, beyond, constants, others⟩

end Rfc7894
end Std
end Verif
