import Verif.Spec.Grade
import Verif.Gen.Rfc7585

/-! The ASN.1 of tools/std/rfc7585.asn1 (generated by tools/stdgen.py). -/

namespace Verif
namespace Std
namespace Rfc7585

open Asn1 Spec.X680

/-- `NAIRealm ::=` -/
def NAIRealm : Ty :=
  constrained (SIZE 1 255) UTF8String

/-- Classes of rfc7585.py and the types of the standard they implement. -/
def entries : List Entry :=
  [⟨"rfc7585.NAIRealm", Verif.Rfc7585.NAIRealm, NAIRealm, .same, false⟩]

/-- Classes of rfc7585.py the transcription of the standard has no type for. -/
def beyond : List String :=
  []

/-- Constants of rfc7585.py and the values the standard gives them. -/
def constants : List Constant :=
  [⟨"rfc7585.id_pkix", Verif.Rfc7585.id_pkix, OBJECT_IDENTIFIER, .oid [1, 3, 6, 1, 5, 5, 7], true⟩,
   ⟨"rfc7585.id_on", Verif.Rfc7585.id_on, OBJECT_IDENTIFIER, .oid [1, 3, 6, 1, 5, 5, 7, 8], true⟩,
   ⟨"rfc7585.id_on_naiRealm", Verif.Rfc7585.id_on_naiRealm, OBJECT_IDENTIFIER, .oid [1, 3, 6, 1, 5, 5, 7, 8, 8], true⟩,
   ⟨"rfc7585.ub_naiRealm_length", Verif.Rfc7585.ub_naiRealm_length, INTEGER, .int 255, true⟩]

/-- Constants of rfc7585.py the transcription of the standard has no value for. -/
def others : List String :=
  ["rfc7585.naiRealm"]

def standard : Standard := ⟨Verif.Rfc7585.asModule, entries, beyond, constants, others⟩

end Rfc7585
end Std
end Verif
