import Verif.Spec.Grade
import Verif.Gen.Rfc6487

/-! The ASN.1 of tools/std/rfc6487.asn1 (generated by tools/stdgen.py). -/

namespace Verif
namespace Std
namespace Rfc6487

open Asn1 Spec.X680

/-- Classes of rfc6487.py and the types of the standard they implement. -/
def entries : List Entry :=
  []

/-- Classes of rfc6487.py the transcription of the standard has no type for. -/
def beyond : List String :=
  []

/-- Constants of rfc6487.py and the values the standard gives them. -/
def constants : List Constant :=
  [⟨"rfc6487.id_pkix", Verif.Rfc6487.id_pkix, OBJECT_IDENTIFIER, .oid [1, 3, 6, 1, 5, 5, 7], true⟩,
   ⟨"rfc6487.id_ad", Verif.Rfc6487.id_ad, OBJECT_IDENTIFIER, .oid [1, 3, 6, 1, 5, 5, 7, 48], true⟩,
   ⟨"rfc6487.id_ad_rpkiManifest", Verif.Rfc6487.id_ad_rpkiManifest, OBJECT_IDENTIFIER, .oid [1, 3, 6, 1, 5, 5, 7, 48, 10], true⟩,
   ⟨"rfc6487.id_ad_signedObject", Verif.Rfc6487.id_ad_signedObject, OBJECT_IDENTIFIER, .oid [1, 3, 6, 1, 5, 5, 7, 48, 11], true⟩]

/-- Constants of rfc6487.py the transcription of the standard has no value for. -/
def others : List String :=
  []

def standard : Standard := ⟨Verif.Rfc6487.asModule, entries, beyond, constants, others⟩

end Rfc6487
end Std
end Verif
