import Verif.Spec.Built
import Verif.Std.Rfc7508

/-! What rfc7508.py implements, where that is not the standard (generated by tools/builtgen.py). -/

namespace Verif
namespace Built
namespace Rfc7508

open Asn1 Verif.Std Spec.X680 Spec.Built

/-- `HeaderFieldName ::=`, changed or supplied -/
def HeaderFieldName : Ty :=
  constrained (FROM_PRINTABLE_EXCEPT ":") VisibleString

/-- `HeaderField ::=` -/
def HeaderField : Ty :=
  SEQUENCE [
    mandatory "field-Name" Built.Rfc7508.HeaderFieldName,
    mandatory "field-Value" Std.Rfc7508.HeaderFieldValue,
    default "field-Status" Std.Rfc7508.HeaderFieldStatus (.int 0)]

/-- `HeaderFields ::=` -/
def HeaderFields : Ty :=
  constrained (SIZE_MAX 1) (SEQUENCE_OF Built.Rfc7508.HeaderField)

/-- `SecureHeaderFields ::=` -/
def SecureHeaderFields : Ty :=
  SET [
    mandatory "canonAlgorithm" Std.Rfc7508.Algorithm,
    mandatory "secHeaderFields" Built.Rfc7508.HeaderFields]

def description : Description :=
  ⟨Verif.Rfc7508.asModule,
   [⟨"rfc7508.Algorithm", Verif.Rfc7508.Algorithm, Std.Rfc7508.Algorithm⟩,
    ⟨"rfc7508.HeaderFieldStatus", Verif.Rfc7508.HeaderFieldStatus, Std.Rfc7508.HeaderFieldStatus⟩,
    ⟨"rfc7508.HeaderFieldName", Verif.Rfc7508.HeaderFieldName, Built.Rfc7508.HeaderFieldName⟩,
    ⟨"rfc7508.HeaderFieldValue", Verif.Rfc7508.HeaderFieldValue, Std.Rfc7508.HeaderFieldValue⟩,
    ⟨"rfc7508.HeaderField", Verif.Rfc7508.HeaderField, Built.Rfc7508.HeaderField⟩,
    ⟨"rfc7508.HeaderFields", Verif.Rfc7508.HeaderFields, Built.Rfc7508.HeaderFields⟩,
    ⟨"rfc7508.SecureHeaderFields", Verif.Rfc7508.SecureHeaderFields, Built.Rfc7508.SecureHeaderFields⟩]⟩

end Rfc7508
end Built
end Verif
