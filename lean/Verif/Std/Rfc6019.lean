import Verif.Spec.Grade
import Verif.Gen.Rfc6019

/-! The ASN.1 of tools/std/rfc6019.asn1 (generated by tools/stdgen.py). -/

namespace Verif
namespace Std
namespace Rfc6019

open Asn1 Spec.X680

/-- `BinaryTime ::=` -/
def BinaryTime : Ty :=
  constrained (RANGE_MAX 0) INTEGER

/-- `BinarySigningTime ::=` -/
def BinarySigningTime : Ty :=
  BinaryTime

/-- Classes of rfc6019.py and the types of the standard they implement. -/
def entries : List Entry :=
  [⟨"rfc6019.BinaryTime", Verif.Rfc6019.BinaryTime, BinaryTime, .same, false⟩,
   ⟨"rfc6019.BinarySigningTime", Verif.Rfc6019.BinarySigningTime, BinarySigningTime, .same, false⟩]

/-- Classes of rfc6019.py the transcription of the standard has no type for. -/
def beyond : List String :=
  []

/-- Constants of rfc6019.py and the values the standard gives them. -/
def constants : List Constant :=
  [⟨"rfc6019.id_aa_binarySigningTime", Verif.Rfc6019.id_aa_binarySigningTime, OBJECT_IDENTIFIER, .oid [1, 2, 840, 113549, 1, 9, 16, 2, 46], true⟩]

/-- Constants of rfc6019.py the transcription of the standard has no value for. -/
def others : List String :=
  []

def standard : Standard := ⟨Verif.Rfc6019.asModule, entries, beyond, constants, others⟩

end Rfc6019
end Std
end Verif
