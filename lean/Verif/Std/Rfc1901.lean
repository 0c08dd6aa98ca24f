import Verif.Spec.Grade
import Verif.Gen.Rfc1901

/-! The ASN.1 of tools/std/rfc1901.asn1 (generated by tools/stdgen.py). -/

namespace Verif
namespace Std
namespace Rfc1901

open Asn1 Spec.X680

/-- `Message ::=` -/
def Message : Ty :=
  SEQUENCE [
    mandatory "version" (named [("version", 1)] INTEGER),
    mandatory "community" OCTET_STRING,
    mandatory "data" ANY]

/-- Classes of rfc1901.py and the types of the standard they implement. -/
def entries : List Entry :=
  [⟨"rfc1901.Message", Verif.Rfc1901.Message, Message, .same, true⟩]

/-- Classes of rfc1901.py the transcription of the standard has no type for. -/
def beyond : List String :=
  []

/-- Constants of rfc1901.py and the values the standard gives them. -/
def constants : List Constant :=
  []

/-- Constants of rfc1901.py the transcription of the standard has no value for. -/
def others : List String :=
  []

def standard : Standard := ⟨Verif.Rfc1901.asModule, entries, beyond, constants, others⟩

end Rfc1901
end Std
end Verif
