import Verif.Spec.Grade
import Verif.Gen.Rfc5916

/-! The ASN.1 of tools/std/rfc5916.asn1 (generated by tools/stdgen.py). -/

namespace Verif
namespace Std
namespace Rfc5916

open Asn1 Spec.X680

/-- Classes of rfc5916.py and the types of the standard they implement. -/
def entries : List Entry :=
  []

/-- Classes of rfc5916.py the transcription of the standard has no type for. -/
def beyond : List String :=
  []

/-- Constants of rfc5916.py and the values the standard gives them. -/
def constants : List Constant :=
  [⟨"rfc5916.id_deviceOwner", Verif.Rfc5916.id_deviceOwner, OBJECT_IDENTIFIER, .oid [2, 16, 840, 1, 101, 2, 1, 5, 69], true⟩]

/-- Constants of rfc5916.py the transcription of the standard has no value for. -/
def others : List String :=
  ["rfc5916.at_deviceOwner"]

def standard : Standard := ⟨Verif.Rfc5916.asModule, entries, beyond, constants, others⟩

end Rfc5916
end Std
end Verif
