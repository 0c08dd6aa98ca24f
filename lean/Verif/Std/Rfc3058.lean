import Verif.Spec.Grade
import Verif.Gen.Rfc3058

/-! The ASN.1 of tools/std/rfc3058.asn1 (generated by tools/stdgen.py). -/

namespace Verif
namespace Std
namespace Rfc3058

open Asn1 Spec.X680

/-- `IDEA-CBCPar ::=` -/
def IDEA_CBCPar : Ty :=
  SEQUENCE [
    optional "iv" OCTET_STRING]

/-- Classes of rfc3058.py and the types of the standard they implement. -/
def entries : List Entry :=
  [⟨"rfc3058.IDEA_CBCPar", Verif.Rfc3058.IDEA_CBCPar, IDEA_CBCPar, .same, false⟩]

/-- Classes of rfc3058.py the transcription of the standard has no type for. -/
def beyond : List String :=
  []

/-- Constants of rfc3058.py and the values the standard gives them. -/
def constants : List Constant :=
  [⟨"rfc3058.id_IDEA_CBC", Verif.Rfc3058.id_IDEA_CBC, OBJECT_IDENTIFIER, .oid [1, 3, 6, 1, 4, 1, 188, 7, 1, 1, 2], true⟩,
   ⟨"rfc3058.id_alg_CMSIDEAwrap", Verif.Rfc3058.id_alg_CMSIDEAwrap, OBJECT_IDENTIFIER, .oid [1, 3, 6, 1, 4, 1, 188, 7, 1, 1, 6], true⟩]

/-- Constants of rfc3058.py the transcription of the standard has no value for. -/
def others : List String :=
  []

def standard : Standard := ⟨Verif.Rfc3058.asModule, entries, beyond, constants, others⟩

end Rfc3058
end Std
end Verif
