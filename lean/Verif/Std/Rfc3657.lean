import Verif.Spec.Grade
import Verif.Gen.Rfc3657

/-! The ASN.1 of tools/std/rfc3657.asn1 (generated by tools/stdgen.py). -/

namespace Verif
namespace Std
namespace Rfc3657

open Asn1 Spec.X680

/-- `Camellia-IV ::=` -/
def Camellia_IV : Ty :=
  constrained (SIZE 16 16) OCTET_STRING

/-- `CamelliaSMimeCapability ::=` -/
def CamelliaSMimeCapability : Ty :=
  NULL

/-- Classes of rfc3657.py and the types of the standard they implement. -/
def entries : List Entry :=
  [⟨"rfc3657.Camellia_IV", Verif.Rfc3657.Camellia_IV, Camellia_IV, .same, false⟩,
   ⟨"rfc3657.CamelliaSMimeCapability", Verif.Rfc3657.CamelliaSMimeCapability, CamelliaSMimeCapability, .same, false⟩]

/-- Classes of rfc3657.py the transcription of the standard has no type for. -/
def beyond : List String :=
  []

/-- Constants of rfc3657.py and the values the standard gives them. -/
def constants : List Constant :=
  [⟨"rfc3657.id_camellia128_cbc", Verif.Rfc3657.id_camellia128_cbc, OBJECT_IDENTIFIER, .oid [1, 2, 392, 200011, 61, 1, 1, 1, 2], true⟩,
   ⟨"rfc3657.id_camellia192_cbc", Verif.Rfc3657.id_camellia192_cbc, OBJECT_IDENTIFIER, .oid [1, 2, 392, 200011, 61, 1, 1, 1, 3], true⟩,
   ⟨"rfc3657.id_camellia256_cbc", Verif.Rfc3657.id_camellia256_cbc, OBJECT_IDENTIFIER, .oid [1, 2, 392, 200011, 61, 1, 1, 1, 4], true⟩,
   ⟨"rfc3657.id_camellia128_wrap", Verif.Rfc3657.id_camellia128_wrap, OBJECT_IDENTIFIER, .oid [1, 2, 392, 200011, 61, 1, 1, 3, 2], true⟩,
   ⟨"rfc3657.id_camellia192_wrap", Verif.Rfc3657.id_camellia192_wrap, OBJECT_IDENTIFIER, .oid [1, 2, 392, 200011, 61, 1, 1, 3, 3], true⟩,
   ⟨"rfc3657.id_camellia256_wrap", Verif.Rfc3657.id_camellia256_wrap, OBJECT_IDENTIFIER, .oid [1, 2, 392, 200011, 61, 1, 1, 3, 4], true⟩]

/-- Constants of rfc3657.py the transcription of the standard has no value for. -/
def others : List String :=
  []

def standard : Standard := ⟨Verif.Rfc3657.asModule, entries, beyond, constants, others⟩

end Rfc3657
end Std
end Verif
