import Verif.Spec.Grade
import Verif.Gen.Rfc4491
import Verif.Std.Rfc4357

/-! The ASN.1 of tools/std/rfc4491.asn1 (generated by tools/stdgen.py). -/

namespace Verif
namespace Std
namespace Rfc4491

open Asn1 Spec.X680

/-- Classes of rfc4491.py and the types of the standard they implement. -/
def entries : List Entry :=
  []

/-- Classes of rfc4491.py the transcription of the standard has no type for. -/
def beyond : List String :=
  ["rfc4491.GostR3410_2001_PublicKey",
   "rfc4491.GostR3410_2001_PublicKeyParameters",
   "rfc4491.GostR3410_94_PublicKey",
   "rfc4491.GostR3410_94_PublicKeyParameters"]

/-- Constants of rfc4491.py and the values the standard gives them. -/
def constants : List Constant :=
  [⟨"rfc4491.id_GostR3411_94_with_GostR3410_94", Verif.Rfc4491.id_GostR3411_94_with_GostR3410_94, OBJECT_IDENTIFIER, .oid [1, 2, 643, 2, 2, 4], true⟩,
   ⟨"rfc4491.id_GostR3411_94_with_GostR3410_2001", Verif.Rfc4491.id_GostR3411_94_with_GostR3410_2001, OBJECT_IDENTIFIER, .oid [1, 2, 643, 2, 2, 3], true⟩,
   ⟨"rfc4491.id_GostR3410_94", Verif.Rfc4491.id_GostR3410_94, OBJECT_IDENTIFIER, .oid [1, 2, 643, 2, 2, 20], true⟩,
   ⟨"rfc4491.id_GostR3410_2001", Verif.Rfc4491.id_GostR3410_2001, OBJECT_IDENTIFIER, .oid [1, 2, 643, 2, 2, 19], true⟩]

/-- Constants of rfc4491.py the transcription of the standard has no value for. -/
def others : List String :=
  []

def standard : Standard := ⟨Verif.Rfc4491.asModule, entries, beyond, constants, others⟩

end Rfc4491
end Std
end Verif
