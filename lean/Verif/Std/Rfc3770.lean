import Verif.Spec.Grade
import Verif.Gen.Rfc3770

/-! The ASN.1 of tools/std/rfc3770.asn1 (generated by tools/stdgen.py). -/

namespace Verif
namespace Std
namespace Rfc3770

open Asn1 Spec.X680

/-- `SSID ::=` -/
def SSID : Ty :=
  constrained (SIZE 1 32) OCTET_STRING

/-- `SSIDList ::=` -/
def SSIDList : Ty :=
  constrained (SIZE_MAX 1) (SEQUENCE_OF SSID)

/-- Classes of rfc3770.py and the types of the standard they implement. -/
def entries : List Entry :=
  [⟨"rfc3770.SSID", Verif.Rfc3770.SSID, SSID, .same, false⟩,
   ⟨"rfc3770.SSIDList", Verif.Rfc3770.SSIDList, SSIDList, .same, false⟩]

/-- Classes of rfc3770.py the transcription of the standard has no type for. -/
def beyond : List String :=
  []

/-- Constants of rfc3770.py and the values the standard gives them. -/
def constants : List Constant :=
  [⟨"rfc3770.id_kp_eapOverLAN", Verif.Rfc3770.id_kp_eapOverLAN, OBJECT_IDENTIFIER, .oid [1, 3, 6, 1, 5, 5, 7, 3, 14], true⟩,
   ⟨"rfc3770.id_kp_eapOverPPP", Verif.Rfc3770.id_kp_eapOverPPP, OBJECT_IDENTIFIER, .oid [1, 3, 6, 1, 5, 5, 7, 3, 13], true⟩,
   ⟨"rfc3770.id_pe_wlanSSID", Verif.Rfc3770.id_pe_wlanSSID, OBJECT_IDENTIFIER, .oid [1, 3, 6, 1, 5, 5, 7, 1, 13], true⟩]

/-- Constants of rfc3770.py the transcription of the standard has no value for. -/
def others : List String :=
  ["rfc3770.id_aca_wlanSSID"]

def standard : Standard := ⟨Verif.Rfc3770.asModule, entries, beyond, constants, others⟩

end Rfc3770
end Std
end Verif
