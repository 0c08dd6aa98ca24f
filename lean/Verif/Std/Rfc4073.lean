import Verif.Spec.Grade
import Verif.Gen.Rfc4073
import Verif.Std.Rfc5652

/-! The ASN.1 of tools/std/rfc4073.asn1 (generated by tools/stdgen.py). -/

namespace Verif
namespace Std
namespace Rfc4073

open Asn1 Spec.X680

/-- `ContentCollection ::=` -/
def ContentCollection : Ty :=
  constrained (SIZE_MAX 1) (SEQUENCE_OF Std.Rfc5652.ContentInfo)

/-- `ContentWithAttributes ::=` -/
def ContentWithAttributes : Ty :=
  SEQUENCE [
    mandatory "content" Std.Rfc5652.ContentInfo,
    mandatory "attrs" (constrained (SIZE_MAX 1) (SEQUENCE_OF Std.Rfc5652.Attribute))]

/-- Classes of rfc4073.py and the types of the standard they implement. -/
def entries : List Entry :=
  [⟨"rfc4073.ContentCollection", Verif.Rfc4073.ContentCollection, ContentCollection, .same, false⟩,
   ⟨"rfc4073.ContentWithAttributes", Verif.Rfc4073.ContentWithAttributes, ContentWithAttributes, .same, false⟩]

/-- Classes of rfc4073.py the transcription of the standard has no type for. -/
def beyond : List String :=
  []

/-- Constants of rfc4073.py and the values the standard gives them. -/
def constants : List Constant :=
  [⟨"rfc4073.id_ct_contentCollection", Verif.Rfc4073.id_ct_contentCollection, OBJECT_IDENTIFIER, .oid [1, 2, 840, 113549, 1, 9, 16, 1, 19], true⟩,
   ⟨"rfc4073.id_ct_contentWithAttrs", Verif.Rfc4073.id_ct_contentWithAttrs, OBJECT_IDENTIFIER, .oid [1, 2, 840, 113549, 1, 9, 16, 1, 20], true⟩]

/-- Constants of rfc4073.py the transcription of the standard has no value for. -/
def others : List String :=
  []

def standard : Standard := ⟨Verif.Rfc4073.asModule, entries, beyond, constants, others⟩

end Rfc4073
end Std
end Verif
