import Verif.Spec.Grade
import Verif.Gen.Rfc3114

/-! The ASN.1 of tools/std/rfc3114.asn1 (generated by tools/stdgen.py). -/

namespace Verif
namespace Std
namespace Rfc3114

open Asn1 Spec.X680

/-- `Amoco-SecurityClassification ::=` -/
def Amoco_SecurityClassification : Ty :=
  named [("amoco-general", 6), ("amoco-confidential", 7), ("amoco-highly-confidential", 8)] INTEGER

/-- `Caterpillar-SecurityClassification ::=` -/
def Caterpillar_SecurityClassification : Ty :=
  named [("caterpillar-public", 6), ("caterpillar-green", 7), ("caterpillar-yellow", 8), ("caterpillar-red", 9)] INTEGER

/-- `Whirlpool-SecurityClassification ::=` -/
def Whirlpool_SecurityClassification : Ty :=
  named [("whirlpool-public", 6), ("whirlpool-internal", 7), ("whirlpool-confidential", 8)] INTEGER

/-- `SecurityCategoryValues ::=` -/
def SecurityCategoryValues : Ty :=
  SEQUENCE_OF UTF8String

/-- Classes of rfc3114.py and the types of the standard they implement. -/
def entries : List Entry :=
  [⟨"rfc3114.Amoco_SecurityClassification", Verif.Rfc3114.Amoco_SecurityClassification, Amoco_SecurityClassification, .same, false⟩,
   ⟨"rfc3114.Caterpillar_SecurityClassification", Verif.Rfc3114.Caterpillar_SecurityClassification, Caterpillar_SecurityClassification, .same, false⟩,
   ⟨"rfc3114.Whirlpool_SecurityClassification", Verif.Rfc3114.Whirlpool_SecurityClassification, Whirlpool_SecurityClassification, .same, false⟩,
   ⟨"rfc3114.SecurityCategoryValues", Verif.Rfc3114.SecurityCategoryValues, SecurityCategoryValues, .same, false⟩]

/-- Classes of rfc3114.py the transcription of the standard has no type for. -/
def beyond : List String :=
  []

/-- Constants of rfc3114.py and the values the standard gives them. -/
def constants : List Constant :=
  [⟨"rfc3114.id_smime", Verif.Rfc3114.id_smime, OBJECT_IDENTIFIER, .oid [1, 2, 840, 113549, 1, 9, 16], true⟩,
   ⟨"rfc3114.id_tsp", Verif.Rfc3114.id_tsp, OBJECT_IDENTIFIER, .oid [1, 2, 840, 113549, 1, 9, 16, 7], true⟩,
   ⟨"rfc3114.id_tsp_TEST_Amoco", Verif.Rfc3114.id_tsp_TEST_Amoco, OBJECT_IDENTIFIER, .oid [1, 2, 840, 113549, 1, 9, 16, 7, 1], true⟩,
   ⟨"rfc3114.id_tsp_TEST_Caterpillar", Verif.Rfc3114.id_tsp_TEST_Caterpillar, OBJECT_IDENTIFIER, .oid [1, 2, 840, 113549, 1, 9, 16, 7, 2], true⟩,
   ⟨"rfc3114.id_tsp_TEST_Whirlpool", Verif.Rfc3114.id_tsp_TEST_Whirlpool, OBJECT_IDENTIFIER, .oid [1, 2, 840, 113549, 1, 9, 16, 7, 3], true⟩,
   ⟨"rfc3114.id_tsp_TEST_Whirlpool_Categories", Verif.Rfc3114.id_tsp_TEST_Whirlpool_Categories, OBJECT_IDENTIFIER, .oid [1, 2, 840, 113549, 1, 9, 16, 7, 4], true⟩]

/-- Constants of rfc3114.py the transcription of the standard has no value for. -/
def others : List String :=
  []

def standard : Standard := ⟨Verif.Rfc3114.asModule, entries, beyond, constants, others⟩

end Rfc3114
end Std
end Verif
