import Verif.Spec.Grade
import Verif.Gen.Rfc5917

/-! The ASN.1 of tools/std/rfc5917.asn1 (generated by tools/stdgen.py). -/

namespace Verif
namespace Std
namespace Rfc5917

open Asn1 Spec.X680

/-- Classes of rfc5917.py and the types of the standard they implement. -/
def entries : List Entry :=
  []

/-- Classes of rfc5917.py the transcription of the standard has no type for. -/
def beyond : List String :=
  ["rfc5917.DirectoryString"]

/-- Constants of rfc5917.py and the values the standard gives them. -/
def constants : List Constant :=
  [⟨"rfc5917.id_clearanceSponsor", Verif.Rfc5917.id_clearanceSponsor, OBJECT_IDENTIFIER, .oid [2, 16, 840, 1, 101, 2, 1, 5, 68], true⟩,
   ⟨"rfc5917.ub_clearance_sponsor", Verif.Rfc5917.ub_clearance_sponsor, INTEGER, .int 64, true⟩]

/-- Constants of rfc5917.py the transcription of the standard has no value for. -/
def others : List String :=
  ["rfc5917.at_clearanceSponsor"]

def standard : Standard := ⟨Verif.Rfc5917.asModule, entries, beyond, constants, others⟩

end Rfc5917
end Std
end Verif
