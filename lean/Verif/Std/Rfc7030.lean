import Verif.Spec.Grade
import Verif.Gen.Rfc7030
import Verif.Std.Rfc5652

/-! The ASN.1 of tools/std/rfc7030.asn1 (generated by tools/stdgen.py). -/

namespace Verif
namespace Std
namespace Rfc7030

open Asn1 Spec.X680

/-- `AsymmetricDecryptKeyIdentifier ::=` -/
def AsymmetricDecryptKeyIdentifier : Ty :=
  OCTET_STRING

/-- `AttrOrOID ::=` -/
def AttrOrOID : Ty :=
  CHOICE [
    mandatory "oid" OBJECT_IDENTIFIER,
    mandatory "attribute" Std.Rfc5652.Attribute]

/-- `CsrAttrs ::=` -/
def CsrAttrs : Ty :=
  constrained (SIZE_MAX 0) (SEQUENCE_OF AttrOrOID)

/-- Classes of rfc7030.py and the types of the standard they implement. -/
def entries : List Entry :=
  [⟨"rfc7030.Attribute", Verif.Rfc7030.Attribute, Std.Rfc5652.Attribute, .same, false⟩,
   ⟨"rfc7030.AsymmetricDecryptKeyIdentifier", Verif.Rfc7030.AsymmetricDecryptKeyIdentifier, AsymmetricDecryptKeyIdentifier, .same, false⟩,
   ⟨"rfc7030.AttrOrOID", Verif.Rfc7030.AttrOrOID, AttrOrOID, .same, false⟩,
   ⟨"rfc7030.CsrAttrs", Verif.Rfc7030.CsrAttrs, CsrAttrs, .same, false⟩]

/-- Classes of rfc7030.py the transcription of the standard has no type for. -/
def beyond : List String :=
  []

/-- Constants of rfc7030.py and the values the standard gives them. -/
def constants : List Constant :=
  [⟨"rfc7030.id_aa_asymmDecryptKeyID", Verif.Rfc7030.id_aa_asymmDecryptKeyID, OBJECT_IDENTIFIER, .oid [1, 2, 840, 113549, 1, 9, 16, 2, 54], true⟩]

/-- Constants of rfc7030.py the transcription of the standard has no value for. -/
def others : List String :=
  ["rfc7030.aa_asymmDecryptKeyID"]

def standard : Standard := ⟨Verif.Rfc7030.asModule, entries, beyond, constants, others⟩

end Rfc7030
end Std
end Verif
