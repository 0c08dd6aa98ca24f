import Verif.Spec.Grade
import Verif.Gen.Rfc4387

/-! The ASN.1 of tools/std/rfc4387.asn1 (generated by tools/stdgen.py). -/

namespace Verif
namespace Std
namespace Rfc4387

open Asn1 Spec.X680

/-- Classes of rfc4387.py and the types of the standard they implement. -/
def entries : List Entry :=
  []

/-- Classes of rfc4387.py the transcription of the standard has no type for. -/
def beyond : List String :=
  []

/-- Constants of rfc4387.py and the values the standard gives them. -/
def constants : List Constant :=
  [⟨"rfc4387.id_ad", Verif.Rfc4387.id_ad, OBJECT_IDENTIFIER, .oid [1, 3, 6, 1, 5, 5, 7, 48], true⟩,
   ⟨"rfc4387.id_ad_http_certs", Verif.Rfc4387.id_ad_http_certs, OBJECT_IDENTIFIER, .oid [1, 3, 6, 1, 5, 5, 7, 48, 6], true⟩,
   ⟨"rfc4387.id_ad_http_crls", Verif.Rfc4387.id_ad_http_crls, OBJECT_IDENTIFIER, .oid [1, 3, 6, 1, 5, 5, 7, 48, 7], true⟩]

/-- Constants of rfc4387.py the transcription of the standard has no value for. -/
def others : List String :=
  []

def standard : Standard := ⟨Verif.Rfc4387.asModule, entries, beyond, constants, others⟩

end Rfc4387
end Std
end Verif
