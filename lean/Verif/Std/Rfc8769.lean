import Verif.Spec.Grade
import Verif.Gen.Rfc8769

/-! The ASN.1 of tools/std/rfc8769.asn1 (generated by tools/stdgen.py). -/

namespace Verif
namespace Std
namespace Rfc8769

open Asn1 Spec.X680

/-- Classes of rfc8769.py and the types of the standard they implement. -/
def entries : List Entry :=
  []

/-- Classes of rfc8769.py the transcription of the standard has no type for. -/
def beyond : List String :=
  []

/-- Constants of rfc8769.py and the values the standard gives them. -/
def constants : List Constant :=
  [⟨"rfc8769.id_ct_cbor", Verif.Rfc8769.id_ct_cbor, OBJECT_IDENTIFIER, .oid [1, 2, 840, 113549, 1, 9, 16, 1, 44], true⟩,
   ⟨"rfc8769.id_ct_cborSequence", Verif.Rfc8769.id_ct_cborSequence, OBJECT_IDENTIFIER, .oid [1, 2, 840, 113549, 1, 9, 16, 1, 45], true⟩]

/-- Constants of rfc8769.py the transcription of the standard has no value for. -/
def others : List String :=
  []

def standard : Standard := ⟨Verif.Rfc8769.asModule, entries, beyond, constants, others⟩

end Rfc8769
end Std
end Verif
