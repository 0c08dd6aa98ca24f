import Verif.Spec.Grade
import Verif.Gen.Rfc8520
import Verif.Std.Rfc5280

/-! The ASN.1 of tools/std/rfc8520.asn1 (generated by tools/stdgen.py). -/

namespace Verif
namespace Std
namespace Rfc8520

open Asn1 Spec.X680

/-- `MUDURLSyntax ::=` -/
def MUDURLSyntax : Ty :=
  IA5String

/-- `MUDsignerSyntax ::=` -/
def MUDsignerSyntax : Ty :=
  Std.Rfc5280.Name

/-- Classes of rfc8520.py and the types of the standard they implement. -/
def entries : List Entry :=
  [⟨"rfc8520.MUDURLSyntax", Verif.Rfc8520.MUDURLSyntax, MUDURLSyntax, .same, false⟩,
   ⟨"rfc8520.MUDsignerSyntax", Verif.Rfc8520.MUDsignerSyntax, MUDsignerSyntax, .same, false⟩]

/-- Classes of rfc8520.py the transcription of the standard has no type for. -/
def beyond : List String :=
  []

/-- Constants of rfc8520.py and the values the standard gives them. -/
def constants : List Constant :=
  [⟨"rfc8520.id_pe_mud_url", Verif.Rfc8520.id_pe_mud_url, OBJECT_IDENTIFIER, .oid [1, 3, 6, 1, 5, 5, 7, 1, 25], true⟩,
   ⟨"rfc8520.id_pe_mudsigner", Verif.Rfc8520.id_pe_mudsigner, OBJECT_IDENTIFIER, .oid [1, 3, 6, 1, 5, 5, 7, 1, 30], true⟩,
   ⟨"rfc8520.id_ct_mudtype", Verif.Rfc8520.id_ct_mudtype, OBJECT_IDENTIFIER, .oid [1, 2, 840, 113549, 1, 9, 16, 1, 41], true⟩]

/-- Constants of rfc8520.py the transcription of the standard has no value for. -/
def others : List String :=
  []

def standard : Standard := ⟨Verif.Rfc8520.asModule, entries, beyond, constants, others⟩

end Rfc8520
end Std
end Verif
