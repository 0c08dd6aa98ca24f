import Verif.Spec.Grade
import Verif.Gen.Rfc7508

/-! The ASN.1 of tools/std/rfc7508.asn1 (generated by tools/stdgen.py). -/

namespace Verif
namespace Std
namespace Rfc7508

open Asn1 Spec.X680

/-- `Algorithm ::=` -/
def Algorithm : Ty :=
  named [("canonAlgorithmSimple", 0), ("canonAlgorithmRelaxed", 1)] ENUMERATED

/-- `HeaderFieldName ::=` -/
def HeaderFieldName : Ty :=
  constrained (FROM_EXCEPT ":") VisibleString

/-- `HeaderFieldValue ::=` -/
def HeaderFieldValue : Ty :=
  UTF8String

/-- `HeaderFieldStatus ::=` -/
def HeaderFieldStatus : Ty :=
  named [("duplicated", 0), ("deleted", 1), ("modified", 2)] INTEGER

/-- `HeaderField ::=` -/
def HeaderField : Ty :=
  SEQUENCE [
    mandatory "field-Name" HeaderFieldName,
    mandatory "field-Value" HeaderFieldValue,
    default "field-Status" HeaderFieldStatus (.int 0)]

/-- `HeaderFields ::=` -/
def HeaderFields : Ty :=
  constrained (SIZE_MAX 1) (SEQUENCE_OF HeaderField)

/-- `SecureHeaderFields ::=` -/
def SecureHeaderFields : Ty :=
  SET [
    mandatory "canonAlgorithm" Algorithm,
    mandatory "secHeaderFields" HeaderFields]

/-- Classes of rfc7508.py and the types of the standard they implement. -/
def entries : List Entry :=
  [⟨"rfc7508.Algorithm", Verif.Rfc7508.Algorithm, Algorithm, .same, false⟩,
   ⟨"rfc7508.HeaderFieldStatus", Verif.Rfc7508.HeaderFieldStatus, HeaderFieldStatus, .same, false⟩,
   ⟨"rfc7508.HeaderFieldName", Verif.Rfc7508.HeaderFieldName, HeaderFieldName, .relaxed, false⟩,
   ⟨"rfc7508.HeaderFieldValue", Verif.Rfc7508.HeaderFieldValue, HeaderFieldValue, .same, false⟩,
   ⟨"rfc7508.HeaderField", Verif.Rfc7508.HeaderField, HeaderField, .relaxed, false⟩,
   ⟨"rfc7508.HeaderFields", Verif.Rfc7508.HeaderFields, HeaderFields, .relaxed, false⟩,
   ⟨"rfc7508.SecureHeaderFields", Verif.Rfc7508.SecureHeaderFields, SecureHeaderFields, .relaxed, false⟩]

/-- Classes of rfc7508.py the transcription of the standard has no type for. -/
def beyond : List String :=
  []

/-- Constants of rfc7508.py and the values the standard gives them. -/
def constants : List Constant :=
  [⟨"rfc7508.id_aa", Verif.Rfc7508.id_aa, OBJECT_IDENTIFIER, .oid [1, 2, 840, 113549, 1, 9, 16, 2], true⟩,
   ⟨"rfc7508.id_aa_secureHeaderFieldsIdentifier", Verif.Rfc7508.id_aa_secureHeaderFieldsIdentifier, OBJECT_IDENTIFIER, .oid [1, 2, 840, 113549, 1, 9, 16, 2, 55], true⟩]

/-- Constants of rfc7508.py the transcription of the standard has no value for. -/
def others : List String :=
  []

def standard : Standard := ⟨Verif.Rfc7508.asModule, entries, beyond, constants, others⟩

end Rfc7508
end Std
end Verif
