import Verif.Spec.Grade
import Verif.Gen.Rfc8649
import Verif.Std.Rfc5280

/-! The ASN.1 of tools/std/rfc8649.asn1 (generated by tools/stdgen.py). -/

namespace Verif
namespace Std
namespace Rfc8649

open Asn1 Spec.X680

/-- `HashedRootKey ::=` -/
def HashedRootKey : Ty :=
  SEQUENCE [
    mandatory "hashAlg" Std.Rfc5280.AlgorithmIdentifier,
    mandatory "hashValue" OCTET_STRING]

/-- Classes of rfc8649.py and the types of the standard they implement. -/
def entries : List Entry :=
  [⟨"rfc8649.HashedRootKey", Verif.Rfc8649.HashedRootKey, HashedRootKey, .same, false⟩]

/-- Classes of rfc8649.py the transcription of the standard has no type for. -/
def beyond : List String :=
  []

/-- Constants of rfc8649.py and the values the standard gives them. -/
def constants : List Constant :=
  [⟨"rfc8649.id_ce_hashOfRootKey", Verif.Rfc8649.id_ce_hashOfRootKey, OBJECT_IDENTIFIER, .oid [1, 3, 6, 1, 4, 1, 51483, 2, 1], true⟩]

/-- Constants of rfc8649.py the transcription of the standard has no value for. -/
def others : List String :=
  []

def standard : Standard := ⟨Verif.Rfc8649.asModule, entries, beyond, constants, others⟩

end Rfc8649
end Std
end Verif
