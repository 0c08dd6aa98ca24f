import Verif.Spec.Grade
import Verif.Gen.Rfc8360
import Verif.Std.Rfc3779

/-! The ASN.1 of tools/std/rfc8360.asn1 (generated by tools/stdgen.py). -/

namespace Verif
namespace Std
namespace Rfc8360

open Asn1 Spec.X680

/-- Classes of rfc8360.py and the types of the standard they implement. -/
def entries : List Entry :=
  [⟨"rfc8360.IPAddrBlocks", Verif.Rfc8360.IPAddrBlocks, Std.Rfc3779.IPAddrBlocks, .same, false⟩,
   ⟨"rfc8360.ASIdentifiers", Verif.Rfc8360.ASIdentifiers, Std.Rfc3779.ASIdentifiers, .same, false⟩]

/-- Classes of rfc8360.py the transcription of the standard has no type for. -/
def beyond : List String :=
  []

/-- Constants of rfc8360.py and the values the standard gives them. -/
def constants : List Constant :=
  [⟨"rfc8360.id_pe_ipAddrBlocks_v2", Verif.Rfc8360.id_pe_ipAddrBlocks_v2, OBJECT_IDENTIFIER, .oid [1, 3, 6, 1, 5, 5, 7, 1, 28], true⟩,
   ⟨"rfc8360.id_pe_autonomousSysIds_v2", Verif.Rfc8360.id_pe_autonomousSysIds_v2, OBJECT_IDENTIFIER, .oid [1, 3, 6, 1, 5, 5, 7, 1, 29], true⟩]

/-- Constants of rfc8360.py the transcription of the standard has no value for. -/
def others : List String :=
  []

def standard : Standard := ⟨Verif.Rfc8360.asModule, entries, beyond, constants, others⟩

end Rfc8360
end Std
end Verif
