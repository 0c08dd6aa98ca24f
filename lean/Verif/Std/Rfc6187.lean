import Verif.Spec.Grade
import Verif.Gen.Rfc6187

/-! The ASN.1 of tools/std/rfc6187.asn1 (generated by tools/stdgen.py). -/

namespace Verif
namespace Std
namespace Rfc6187

open Asn1 Spec.X680

/-- Classes of rfc6187.py and the types of the standard they implement. -/
def entries : List Entry :=
  []

/-- Classes of rfc6187.py the transcription of the standard has no type for. -/
def beyond : List String :=
  []

/-- Constants of rfc6187.py and the values the standard gives them. -/
def constants : List Constant :=
  [⟨"rfc6187.id_pkix", Verif.Rfc6187.id_pkix, OBJECT_IDENTIFIER, .oid [1, 3, 6, 1, 5, 5, 7], true⟩,
   ⟨"rfc6187.id_kp", Verif.Rfc6187.id_kp, OBJECT_IDENTIFIER, .oid [1, 3, 6, 1, 5, 5, 7, 3], true⟩,
   ⟨"rfc6187.id_kp_secureShellClient", Verif.Rfc6187.id_kp_secureShellClient, OBJECT_IDENTIFIER, .oid [1, 3, 6, 1, 5, 5, 7, 3, 21], true⟩,
   ⟨"rfc6187.id_kp_secureShellServer", Verif.Rfc6187.id_kp_secureShellServer, OBJECT_IDENTIFIER, .oid [1, 3, 6, 1, 5, 5, 7, 3, 22], true⟩]

/-- Constants of rfc6187.py the transcription of the standard has no value for. -/
def others : List String :=
  []

def standard : Standard := ⟨Verif.Rfc6187.asModule, entries, beyond, constants, others⟩

end Rfc6187
end Std
end Verif
