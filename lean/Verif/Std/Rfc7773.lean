import Verif.Spec.Grade
import Verif.Gen.Rfc7773

/-! The ASN.1 of tools/std/rfc7773.asn1 (generated by tools/stdgen.py). -/

namespace Verif
namespace Std
namespace Rfc7773

open Asn1 Spec.X680

/-- `AuthenticationContext ::=` -/
def AuthenticationContext : Ty :=
  SEQUENCE [
    mandatory "contextType" UTF8String,
    optional "contextInfo" UTF8String]

/-- `AuthenticationContexts ::=` -/
def AuthenticationContexts : Ty :=
  constrained (SIZE_MAX 1) (SEQUENCE_OF AuthenticationContext)

/-- Classes of rfc7773.py and the types of the standard they implement. -/
def entries : List Entry :=
  [⟨"rfc7773.AuthenticationContext", Verif.Rfc7773.AuthenticationContext, AuthenticationContext, .same, false⟩,
   ⟨"rfc7773.AuthenticationContexts", Verif.Rfc7773.AuthenticationContexts, AuthenticationContexts, .same, false⟩]

/-- Classes of rfc7773.py the transcription of the standard has no type for. -/
def beyond : List String :=
  []

/-- Constants of rfc7773.py and the values the standard gives them. -/
def constants : List Constant :=
  [⟨"rfc7773.e_legnamnden", Verif.Rfc7773.e_legnamnden, OBJECT_IDENTIFIER, .oid [1, 2, 752, 201], true⟩,
   ⟨"rfc7773.id_eleg_ce", Verif.Rfc7773.id_eleg_ce, OBJECT_IDENTIFIER, .oid [1, 2, 752, 201, 5], true⟩,
   ⟨"rfc7773.id_ce_authContext", Verif.Rfc7773.id_ce_authContext, OBJECT_IDENTIFIER, .oid [1, 2, 752, 201, 5, 1], true⟩]

/-- Constants of rfc7773.py the transcription of the standard has no value for. -/
def others : List String :=
  []

def standard : Standard := ⟨Verif.Rfc7773.asModule, entries, beyond, constants, others⟩

end Rfc7773
end Std
end Verif
