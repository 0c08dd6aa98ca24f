import Verif.Spec.Grade
import Verif.Gen.Rfc2876

/-! The ASN.1 of tools/std/rfc2876.asn1 (generated by tools/stdgen.py). -/

namespace Verif
namespace Std
namespace Rfc2876

open Asn1 Spec.X680

/-- `Skipjack-Parm ::=` -/
def Skipjack_Parm : Ty :=
  SEQUENCE [
    mandatory "initialization-vector" OCTET_STRING]

/-- Classes of rfc2876.py and the types of the standard they implement. -/
def entries : List Entry :=
  [⟨"rfc2876.Skipjack_Parm", Verif.Rfc2876.Skipjack_Parm, Skipjack_Parm, .same, false⟩]

/-- Classes of rfc2876.py the transcription of the standard has no type for. -/
def beyond : List String :=
  []

/-- Constants of rfc2876.py and the values the standard gives them. -/
def constants : List Constant :=
  [⟨"rfc2876.id_fortezzaConfidentialityAlgorithm", Verif.Rfc2876.id_fortezzaConfidentialityAlgorithm, OBJECT_IDENTIFIER, .oid [2, 16, 840, 1, 101, 2, 1, 1, 4], true⟩,
   ⟨"rfc2876.id_fortezzaWrap80", Verif.Rfc2876.id_fortezzaWrap80, OBJECT_IDENTIFIER, .oid [2, 16, 840, 1, 101, 2, 1, 1, 23], true⟩,
   ⟨"rfc2876.id_kEAKeyEncryptionAlgorithm", Verif.Rfc2876.id_kEAKeyEncryptionAlgorithm, OBJECT_IDENTIFIER, .oid [2, 16, 840, 1, 101, 2, 1, 1, 24], true⟩,
   ⟨"rfc2876.id_keyExchangeAlgorithm", Verif.Rfc2876.id_keyExchangeAlgorithm, OBJECT_IDENTIFIER, .oid [2, 16, 840, 1, 101, 2, 1, 1, 22], true⟩]

/-- Constants of rfc2876.py the transcription of the standard has no value for. -/
def others : List String :=
  []

def standard : Standard := ⟨Verif.Rfc2876.asModule, entries, beyond, constants, others⟩

end Rfc2876
end Std
end Verif
