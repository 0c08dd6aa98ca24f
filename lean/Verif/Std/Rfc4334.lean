import Verif.Spec.Grade
import Verif.Gen.Rfc4334

/-! The ASN.1 of tools/std/rfc4334.asn1 (generated by tools/stdgen.py). -/

namespace Verif
namespace Std
namespace Rfc4334

open Asn1 Spec.X680

/-- `SSID ::=` -/
def SSID : Ty :=
  constrained (SIZE 1 32) OCTET_STRING

/-- `SSIDList ::=` -/
def SSIDList : Ty :=
  constrained (SIZE_MAX 1) (SEQUENCE_OF SSID)

/-- Classes of rfc4334.py and the types of the standard they implement. -/
def entries : List Entry :=
  [⟨"rfc4334.SSID", Verif.Rfc4334.SSID, SSID, .relaxed, false⟩,
   ⟨"rfc4334.SSIDList", Verif.Rfc4334.SSIDList, SSIDList, .relaxed, false⟩]

/-- Classes of rfc4334.py the transcription of the standard has no type for. -/
def beyond : List String :=
  []

/-- Constants of rfc4334.py and the values the standard gives them. -/
def constants : List Constant :=
  [⟨"rfc4334.id_pe", Verif.Rfc4334.id_pe, OBJECT_IDENTIFIER, .oid [1, 3, 6, 1, 5, 5, 7, 1], true⟩,
   ⟨"rfc4334.id_kp", Verif.Rfc4334.id_kp, OBJECT_IDENTIFIER, .oid [1, 3, 6, 1, 5, 5, 7, 3], true⟩,
   ⟨"rfc4334.id_aca", Verif.Rfc4334.id_aca, OBJECT_IDENTIFIER, .oid [1, 3, 6, 1, 5, 5, 7, 10], true⟩,
   ⟨"rfc4334.id_kp_eapOverPPP", Verif.Rfc4334.id_kp_eapOverPPP, OBJECT_IDENTIFIER, .oid [1, 3, 6, 1, 5, 5, 7, 3, 13], true⟩,
   ⟨"rfc4334.id_kp_eapOverLAN", Verif.Rfc4334.id_kp_eapOverLAN, OBJECT_IDENTIFIER, .oid [1, 3, 6, 1, 5, 5, 7, 3, 14], true⟩,
   ⟨"rfc4334.id_pe_wlanSSID", Verif.Rfc4334.id_pe_wlanSSID, OBJECT_IDENTIFIER, .oid [1, 3, 6, 1, 5, 5, 7, 1, 13], true⟩,
   ⟨"rfc4334.id_aca_wlanSSID", Verif.Rfc4334.id_aca_wlanSSID, OBJECT_IDENTIFIER, .oid [1, 3, 6, 1, 5, 5, 7, 10, 7], true⟩]

/-- Constants of rfc4334.py the transcription of the standard has no value for. -/
def others : List String :=
  []

def standard : Standard := ⟨Verif.Rfc4334.asModule, entries, beyond, constants, others⟩

end Rfc4334
end Std
end Verif
