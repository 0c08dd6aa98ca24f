import Verif.Spec.Grade
import Verif.Gen.Rfc5639

/-! The ASN.1 of tools/std/rfc5639.asn1 (generated by tools/stdgen.py). -/

namespace Verif
namespace Std
namespace Rfc5639

open Asn1 Spec.X680

/-- Classes of rfc5639.py and the types of the standard they implement. -/
def entries : List Entry :=
  []

/-- Classes of rfc5639.py the transcription of the standard has no type for. -/
def beyond : List String :=
  []

/-- Constants of rfc5639.py and the values the standard gives them. -/
def constants : List Constant :=
  [⟨"rfc5639.ecStdCurvesAndGeneration", Verif.Rfc5639.ecStdCurvesAndGeneration, OBJECT_IDENTIFIER, .oid [1, 3, 36, 3, 3, 2, 8], true⟩,
   ⟨"rfc5639.ellipticCurve", Verif.Rfc5639.ellipticCurve, OBJECT_IDENTIFIER, .oid [1, 3, 36, 3, 3, 2, 8, 1], true⟩,
   ⟨"rfc5639.versionOne", Verif.Rfc5639.versionOne, OBJECT_IDENTIFIER, .oid [1, 3, 36, 3, 3, 2, 8, 1, 1], true⟩,
   ⟨"rfc5639.brainpoolP160r1", Verif.Rfc5639.brainpoolP160r1, OBJECT_IDENTIFIER, .oid [1, 3, 36, 3, 3, 2, 8, 1, 1, 1], true⟩,
   ⟨"rfc5639.brainpoolP160t1", Verif.Rfc5639.brainpoolP160t1, OBJECT_IDENTIFIER, .oid [1, 3, 36, 3, 3, 2, 8, 1, 1, 2], true⟩,
   ⟨"rfc5639.brainpoolP192r1", Verif.Rfc5639.brainpoolP192r1, OBJECT_IDENTIFIER, .oid [1, 3, 36, 3, 3, 2, 8, 1, 1, 3], true⟩,
   ⟨"rfc5639.brainpoolP192t1", Verif.Rfc5639.brainpoolP192t1, OBJECT_IDENTIFIER, .oid [1, 3, 36, 3, 3, 2, 8, 1, 1, 4], true⟩,
   ⟨"rfc5639.brainpoolP224r1", Verif.Rfc5639.brainpoolP224r1, OBJECT_IDENTIFIER, .oid [1, 3, 36, 3, 3, 2, 8, 1, 1, 5], true⟩,
   ⟨"rfc5639.brainpoolP224t1", Verif.Rfc5639.brainpoolP224t1, OBJECT_IDENTIFIER, .oid [1, 3, 36, 3, 3, 2, 8, 1, 1, 6], true⟩,
   ⟨"rfc5639.brainpoolP256r1", Verif.Rfc5639.brainpoolP256r1, OBJECT_IDENTIFIER, .oid [1, 3, 36, 3, 3, 2, 8, 1, 1, 7], true⟩,
   ⟨"rfc5639.brainpoolP256t1", Verif.Rfc5639.brainpoolP256t1, OBJECT_IDENTIFIER, .oid [1, 3, 36, 3, 3, 2, 8, 1, 1, 8], true⟩,
   ⟨"rfc5639.brainpoolP320r1", Verif.Rfc5639.brainpoolP320r1, OBJECT_IDENTIFIER, .oid [1, 3, 36, 3, 3, 2, 8, 1, 1, 9], true⟩,
   ⟨"rfc5639.brainpoolP320t1", Verif.Rfc5639.brainpoolP320t1, OBJECT_IDENTIFIER, .oid [1, 3, 36, 3, 3, 2, 8, 1, 1, 10], true⟩,
   ⟨"rfc5639.brainpoolP384r1", Verif.Rfc5639.brainpoolP384r1, OBJECT_IDENTIFIER, .oid [1, 3, 36, 3, 3, 2, 8, 1, 1, 11], true⟩,
   ⟨"rfc5639.brainpoolP384t1", Verif.Rfc5639.brainpoolP384t1, OBJECT_IDENTIFIER, .oid [1, 3, 36, 3, 3, 2, 8, 1, 1, 12], true⟩,
   ⟨"rfc5639.brainpoolP512r1", Verif.Rfc5639.brainpoolP512r1, OBJECT_IDENTIFIER, .oid [1, 3, 36, 3, 3, 2, 8, 1, 1, 13], true⟩,
   ⟨"rfc5639.brainpoolP512t1", Verif.Rfc5639.brainpoolP512t1, OBJECT_IDENTIFIER, .oid [1, 3, 36, 3, 3, 2, 8, 1, 1, 14], true⟩]

/-- Constants of rfc5639.py the transcription of the standard has no value for. -/
def others : List String :=
  []

def standard : Standard := ⟨Verif.Rfc5639.asModule, entries, beyond, constants, others⟩

end Rfc5639
end Std
end Verif
