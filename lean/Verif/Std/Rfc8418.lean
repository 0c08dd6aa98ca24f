import Verif.Spec.Grade
import Verif.Gen.Rfc8418
import Verif.Std.Rfc5280
import Verif.Std.Rfc5652
import Verif.Std.Rfc5753

/-! The ASN.1 of tools/std/rfc8418.asn1 (generated by tools/stdgen.py). -/

namespace Verif
namespace Std
namespace Rfc8418

open Asn1 Spec.X680

/-- `KeyWrapAlgorithmIdentifier ::=` -/
def KeyWrapAlgorithmIdentifier : Ty :=
  Std.Rfc5280.AlgorithmIdentifier

/-- Classes of rfc8418.py and the types of the standard they implement. -/
def entries : List Entry :=
  [⟨"rfc8418.KeyEncryptionAlgorithmIdentifier", Verif.Rfc8418.KeyEncryptionAlgorithmIdentifier, Std.Rfc5652.KeyEncryptionAlgorithmIdentifier, .same, false⟩,
   ⟨"rfc8418.KeyWrapAlgorithmIdentifier", Verif.Rfc8418.KeyWrapAlgorithmIdentifier, KeyWrapAlgorithmIdentifier, .same, false⟩]

/-- Classes of rfc8418.py the transcription of the standard has no type for. -/
def beyond : List String :=
  []

/-- Constants of rfc8418.py and the values the standard gives them. -/
def constants : List Constant :=
  [⟨"rfc8418.dhSinglePass_stdDH_sha256kdf_scheme", Verif.Rfc8418.dhSinglePass_stdDH_sha256kdf_scheme, OBJECT_IDENTIFIER, .oid [1, 3, 132, 1, 11, 1], false⟩,
   ⟨"rfc8418.dhSinglePass_stdDH_sha384kdf_scheme", Verif.Rfc8418.dhSinglePass_stdDH_sha384kdf_scheme, OBJECT_IDENTIFIER, .oid [1, 3, 132, 1, 11, 2], false⟩,
   ⟨"rfc8418.dhSinglePass_stdDH_sha512kdf_scheme", Verif.Rfc8418.dhSinglePass_stdDH_sha512kdf_scheme, OBJECT_IDENTIFIER, .oid [1, 3, 132, 1, 11, 3], false⟩,
   ⟨"rfc8418.dhSinglePass_stdDH_hkdf_sha256_scheme", Verif.Rfc8418.dhSinglePass_stdDH_hkdf_sha256_scheme, OBJECT_IDENTIFIER, .oid [1, 2, 840, 113549, 1, 9, 16, 3, 19], true⟩,
   ⟨"rfc8418.dhSinglePass_stdDH_hkdf_sha384_scheme", Verif.Rfc8418.dhSinglePass_stdDH_hkdf_sha384_scheme, OBJECT_IDENTIFIER, .oid [1, 2, 840, 113549, 1, 9, 16, 3, 20], true⟩,
   ⟨"rfc8418.dhSinglePass_stdDH_hkdf_sha512_scheme", Verif.Rfc8418.dhSinglePass_stdDH_hkdf_sha512_scheme, OBJECT_IDENTIFIER, .oid [1, 2, 840, 113549, 1, 9, 16, 3, 21], true⟩]

/-- Constants of rfc8418.py the transcription of the standard has no value for. -/
def others : List String :=
  []

def standard : Standard := ⟨Verif.Rfc8418.asModule, entries, beyond, constants, others⟩

end Rfc8418
end Std
end Verif
