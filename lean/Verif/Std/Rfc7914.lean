import Verif.Spec.Grade
import Verif.Gen.Rfc7914

/-! The ASN.1 of tools/std/rfc7914.asn1 (generated by tools/stdgen.py). -/

namespace Verif
namespace Std
namespace Rfc7914

open Asn1 Spec.X680

/-- `Scrypt-params ::=` -/
def Scrypt_params : Ty :=
  SEQUENCE [
    mandatory "salt" OCTET_STRING,
    mandatory "costParameter" (constrained (RANGE_MAX 1) INTEGER),
    mandatory "blockSize" (constrained (RANGE_MAX 1) INTEGER),
    mandatory "parallelizationParameter" (constrained (RANGE_MAX 1) INTEGER),
    optional "keyLength" (constrained (RANGE_MAX 1) INTEGER)]

/-- Classes of rfc7914.py and the types of the standard they implement. -/
def entries : List Entry :=
  [⟨"rfc7914.Scrypt_params", Verif.Rfc7914.Scrypt_params, Scrypt_params, .same, false⟩]

/-- Classes of rfc7914.py the transcription of the standard has no type for. -/
def beyond : List String :=
  []

/-- Constants of rfc7914.py and the values the standard gives them. -/
def constants : List Constant :=
  [⟨"rfc7914.id_scrypt", Verif.Rfc7914.id_scrypt, OBJECT_IDENTIFIER, .oid [1, 3, 6, 1, 4, 1, 11591, 4, 11], true⟩]

/-- Constants of rfc7914.py the transcription of the standard has no value for. -/
def others : List String :=
  []

def standard : Standard := ⟨Verif.Rfc7914.asModule, entries, beyond, constants, others⟩

end Rfc7914
end Std
end Verif
