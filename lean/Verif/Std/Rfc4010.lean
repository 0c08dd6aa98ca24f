import Verif.Spec.Grade
import Verif.Gen.Rfc4010

/-! The ASN.1 of tools/std/rfc4010.asn1 (generated by tools/stdgen.py). -/

namespace Verif
namespace Std
namespace Rfc4010

open Asn1 Spec.X680

/-- `SeedIV ::=` -/
def SeedIV : Ty :=
  constrained (SIZE 16 16) OCTET_STRING

/-- `SeedCBCParameter ::=` -/
def SeedCBCParameter : Ty :=
  SeedIV

/-- `SeedSMimeCapability ::=` -/
def SeedSMimeCapability : Ty :=
  NULL

/-- Classes of rfc4010.py and the types of the standard they implement. -/
def entries : List Entry :=
  [⟨"rfc4010.SeedIV", Verif.Rfc4010.SeedIV, SeedIV, .same, false⟩,
   ⟨"rfc4010.SeedCBCParameter", Verif.Rfc4010.SeedCBCParameter, SeedCBCParameter, .same, false⟩,
   ⟨"rfc4010.SeedSMimeCapability", Verif.Rfc4010.SeedSMimeCapability, SeedSMimeCapability, .same, false⟩]

/-- Classes of rfc4010.py the transcription of the standard has no type for. -/
def beyond : List String :=
  []

/-- Constants of rfc4010.py and the values the standard gives them. -/
def constants : List Constant :=
  [⟨"rfc4010.id_seedCBC", Verif.Rfc4010.id_seedCBC, OBJECT_IDENTIFIER, .oid [1, 2, 410, 200004, 1, 4], true⟩,
   ⟨"rfc4010.id_npki_app_cmsSeed_wrap", Verif.Rfc4010.id_npki_app_cmsSeed_wrap, OBJECT_IDENTIFIER, .oid [1, 2, 410, 200004, 7, 1, 1, 1], true⟩]

/-- Constants of rfc4010.py the transcription of the standard has no value for. -/
def others : List String :=
  []

def standard : Standard := ⟨Verif.Rfc4010.asModule, entries, beyond, constants, others⟩

end Rfc4010
end Std
end Verif
