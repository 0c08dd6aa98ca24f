import Verif.Spec.Grade
import Verif.Gen.Rfc7633

/-! The ASN.1 of tools/std/rfc7633.asn1 (generated by tools/stdgen.py). -/

namespace Verif
namespace Std
namespace Rfc7633

open Asn1 Spec.X680

/-- `Features ::=` -/
def Features : Ty :=
  SEQUENCE_OF INTEGER

/-- Classes of rfc7633.py and the types of the standard they implement. -/
def entries : List Entry :=
  [⟨"rfc7633.Features", Verif.Rfc7633.Features, Features, .same, false⟩]

/-- Classes of rfc7633.py the transcription of the standard has no type for. -/
def beyond : List String :=
  []

/-- Constants of rfc7633.py and the values the standard gives them. -/
def constants : List Constant :=
  [⟨"rfc7633.id_pe", Verif.Rfc7633.id_pe, OBJECT_IDENTIFIER, .oid [1, 3, 6, 1, 5, 5, 7, 1], true⟩,
   ⟨"rfc7633.id_pe_tlsfeature", Verif.Rfc7633.id_pe_tlsfeature, OBJECT_IDENTIFIER, .oid [1, 3, 6, 1, 5, 5, 7, 1, 24], true⟩]

/-- Constants of rfc7633.py the transcription of the standard has no value for. -/
def others : List String :=
  []

def standard : Standard := ⟨Verif.Rfc7633.asModule, entries, beyond, constants, others⟩

end Rfc7633
end Std
end Verif
