import Verif.Spec.Grade
import Verif.Gen.Rfc6010
import Verif.Std.Rfc5280

/-! The ASN.1 of tools/std/rfc6010.asn1 (generated by tools/stdgen.py). -/

namespace Verif
namespace Std
namespace Rfc6010

open Asn1 Spec.X680

/-- `ContentTypeGeneration ::=` -/
def ContentTypeGeneration : Ty :=
  named [("canSource", 0), ("cannotSource", 1)] ENUMERATED

/-- `AttrConstraint ::=` -/
def AttrConstraint : Ty :=
  SEQUENCE [
    mandatory "attrType" Std.Rfc5280.AttributeType,
    mandatory "attrValues" (constrained (SIZE_MAX 1) (SET_OF Std.Rfc5280.AttributeValue))]

/-- `AttrConstraintList ::=` -/
def AttrConstraintList : Ty :=
  constrained (SIZE_MAX 1) (SEQUENCE_OF AttrConstraint)

/-- `ContentTypeConstraint ::=` -/
def ContentTypeConstraint : Ty :=
  SEQUENCE [
    mandatory "contentType" OBJECT_IDENTIFIER,
    default "canSource" ContentTypeGeneration (.int 0),
    optional "attrConstraints" AttrConstraintList]

/-- `CMSContentConstraints ::=` -/
def CMSContentConstraints : Ty :=
  constrained (SIZE_MAX 1) (SEQUENCE_OF ContentTypeConstraint)

/-- Classes of rfc6010.py and the types of the standard they implement. -/
def entries : List Entry :=
  [⟨"rfc6010.AttributeType", Verif.Rfc6010.AttributeType, Std.Rfc5280.AttributeType, .same, false⟩,
   ⟨"rfc6010.AttributeValue", Verif.Rfc6010.AttributeValue, Std.Rfc5280.AttributeValue, .same, false⟩,
   ⟨"rfc6010.AttrConstraint", Verif.Rfc6010.AttrConstraint, AttrConstraint, .same, false⟩,
   ⟨"rfc6010.AttrConstraintList", Verif.Rfc6010.AttrConstraintList, AttrConstraintList, .same, false⟩,
   ⟨"rfc6010.ContentTypeGeneration", Verif.Rfc6010.ContentTypeGeneration, ContentTypeGeneration, .same, false⟩,
   ⟨"rfc6010.ContentTypeConstraint", Verif.Rfc6010.ContentTypeConstraint, ContentTypeConstraint, .same, false⟩,
   ⟨"rfc6010.CMSContentConstraints", Verif.Rfc6010.CMSContentConstraints, CMSContentConstraints, .same, false⟩]

/-- Classes of rfc6010.py the transcription of the standard has no type for. -/
def beyond : List String :=
  []

/-- Constants of rfc6010.py and the values the standard gives them. -/
def constants : List Constant :=
  [⟨"rfc6010.id_ct_anyContentType", Verif.Rfc6010.id_ct_anyContentType, OBJECT_IDENTIFIER, .oid [1, 2, 840, 113549, 1, 9, 16, 1, 0], true⟩,
   ⟨"rfc6010.id_pe_cmsContentConstraints", Verif.Rfc6010.id_pe_cmsContentConstraints, OBJECT_IDENTIFIER, .oid [1, 3, 6, 1, 5, 5, 7, 1, 18], true⟩]

/-- Constants of rfc6010.py the transcription of the standard has no value for. -/
def others : List String :=
  []

def standard : Standard := ⟨Verif.Rfc6010.asModule, entries, beyond, constants, others⟩

end Rfc6010
end Std
end Verif
