import Verif.Spec.Grade
import Verif.Gen.Rfc4985

/-! The ASN.1 of tools/std/rfc4985.asn1 (generated by tools/stdgen.py). -/

namespace Verif
namespace Std
namespace Rfc4985

open Asn1 Spec.X680

/-- `SRVName ::=` -/
def SRVName : Ty :=
  constrained (SIZE_MAX 1) IA5String

/-- Classes of rfc4985.py and the types of the standard they implement. -/
def entries : List Entry :=
  [⟨"rfc4985.SRVName", Verif.Rfc4985.SRVName, SRVName, .same, false⟩]

/-- Classes of rfc4985.py the transcription of the standard has no type for. -/
def beyond : List String :=
  []

/-- Constants of rfc4985.py and the values the standard gives them. -/
def constants : List Constant :=
  [⟨"rfc4985.id_pkix", Verif.Rfc4985.id_pkix, OBJECT_IDENTIFIER, .oid [1, 3, 6, 1, 5, 5, 7], true⟩,
   ⟨"rfc4985.id_on", Verif.Rfc4985.id_on, OBJECT_IDENTIFIER, .oid [1, 3, 6, 1, 5, 5, 7, 8], true⟩,
   ⟨"rfc4985.id_on_dnsSRV", Verif.Rfc4985.id_on_dnsSRV, OBJECT_IDENTIFIER, .oid [1, 3, 6, 1, 5, 5, 7, 8, 7], true⟩]

/-- Constants of rfc4985.py the transcription of the standard has no value for. -/
def others : List String :=
  ["rfc4985.srvName"]

def standard : Standard := ⟨Verif.Rfc4985.asModule, entries, beyond, constants, others⟩

end Rfc4985
end Std
end Verif
