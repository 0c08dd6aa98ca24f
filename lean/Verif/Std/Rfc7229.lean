import Verif.Spec.Grade
import Verif.Gen.Rfc7229

/-! The ASN.1 of tools/std/rfc7229.asn1 (generated by tools/stdgen.py). -/

namespace Verif
namespace Std
namespace Rfc7229

open Asn1 Spec.X680

/-- Classes of rfc7229.py and the types of the standard they implement. -/
def entries : List Entry :=
  []

/-- Classes of rfc7229.py the transcription of the standard has no type for. -/
def beyond : List String :=
  []

/-- Constants of rfc7229.py and the values the standard gives them. -/
def constants : List Constant :=
  [⟨"rfc7229.id_pkix", Verif.Rfc7229.id_pkix, OBJECT_IDENTIFIER, .oid [1, 3, 6, 1, 5, 5, 7], true⟩,
   ⟨"rfc7229.id_TEST", Verif.Rfc7229.id_TEST, OBJECT_IDENTIFIER, .oid [1, 3, 6, 1, 5, 5, 7, 13], true⟩,
   ⟨"rfc7229.id_TEST_certPolicyOne", Verif.Rfc7229.id_TEST_certPolicyOne, OBJECT_IDENTIFIER, .oid [1, 3, 6, 1, 5, 5, 7, 13, 1], true⟩,
   ⟨"rfc7229.id_TEST_certPolicyTwo", Verif.Rfc7229.id_TEST_certPolicyTwo, OBJECT_IDENTIFIER, .oid [1, 3, 6, 1, 5, 5, 7, 13, 2], true⟩,
   ⟨"rfc7229.id_TEST_certPolicyThree", Verif.Rfc7229.id_TEST_certPolicyThree, OBJECT_IDENTIFIER, .oid [1, 3, 6, 1, 5, 5, 7, 13, 3], true⟩,
   ⟨"rfc7229.id_TEST_certPolicyFour", Verif.Rfc7229.id_TEST_certPolicyFour, OBJECT_IDENTIFIER, .oid [1, 3, 6, 1, 5, 5, 7, 13, 4], true⟩,
   ⟨"rfc7229.id_TEST_certPolicyFive", Verif.Rfc7229.id_TEST_certPolicyFive, OBJECT_IDENTIFIER, .oid [1, 3, 6, 1, 5, 5, 7, 13, 5], true⟩,
   ⟨"rfc7229.id_TEST_certPolicySix", Verif.Rfc7229.id_TEST_certPolicySix, OBJECT_IDENTIFIER, .oid [1, 3, 6, 1, 5, 5, 7, 13, 6], true⟩,
   ⟨"rfc7229.id_TEST_certPolicySeven", Verif.Rfc7229.id_TEST_certPolicySeven, OBJECT_IDENTIFIER, .oid [1, 3, 6, 1, 5, 5, 7, 13, 7], true⟩,
   ⟨"rfc7229.id_TEST_certPolicyEight", Verif.Rfc7229.id_TEST_certPolicyEight, OBJECT_IDENTIFIER, .oid [1, 3, 6, 1, 5, 5, 7, 13, 8], true⟩]

/-- Constants of rfc7229.py the transcription of the standard has no value for. -/
def others : List String :=
  []

def standard : Standard := ⟨Verif.Rfc7229.asModule, entries, beyond, constants, others⟩

end Rfc7229
end Std
end Verif
