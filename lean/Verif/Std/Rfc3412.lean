import Verif.Spec.Grade
import Verif.Gen.Rfc3412

/-! The ASN.1 of tools/std/rfc3412.asn1 (generated by tools/stdgen.py). -/

namespace Verif
namespace Std
namespace Rfc3412

open Asn1 Spec.X680

/-- `HeaderData ::=` -/
def HeaderData : Ty :=
  SEQUENCE [
    mandatory "msgID" (constrained (RANGE 0 2147483647) INTEGER),
    mandatory "msgMaxSize" (constrained (RANGE 484 2147483647) INTEGER),
    mandatory "msgFlags" (constrained (SIZE 1 1) OCTET_STRING),
    mandatory "msgSecurityModel" (constrained (RANGE 1 2147483647) INTEGER)]

/-- `ScopedPDU ::=` -/
def ScopedPDU : Ty :=
  SEQUENCE [
    mandatory "contextEngineID" OCTET_STRING,
    mandatory "contextName" OCTET_STRING,
    mandatory "data" ANY]

/-- `ScopedPduData ::=` -/
def ScopedPduData : Ty :=
  CHOICE [
    mandatory "plaintext" ScopedPDU,
    mandatory "encryptedPDU" OCTET_STRING]

/-- `SNMPv3Message ::=` -/
def SNMPv3Message : Ty :=
  SEQUENCE [
    mandatory "msgVersion" (constrained (RANGE 0 2147483647) INTEGER),
    mandatory "msgGlobalData" HeaderData,
    mandatory "msgSecurityParameters" OCTET_STRING,
    mandatory "msgData" ScopedPduData]

/-- Classes of rfc3412.py and the types of the standard they implement. -/
def entries : List Entry :=
  [⟨"rfc3412.ScopedPDU", Verif.Rfc3412.ScopedPDU, ScopedPDU, (.refused [48, 6, 4, 0, 4, 0, 5, 0]), true⟩,
   ⟨"rfc3412.ScopedPduData", Verif.Rfc3412.ScopedPduData, ScopedPduData, (.refused [48, 6, 4, 0, 4, 0, 5, 0]), true⟩,
   ⟨"rfc3412.HeaderData", Verif.Rfc3412.HeaderData, HeaderData, .same, false⟩,
   ⟨"rfc3412.SNMPv3Message", Verif.Rfc3412.SNMPv3Message, SNMPv3Message, (.refused [48, 28, 2, 1, 0, 48, 13, 2, 1, 0, 2, 2, 1, 228, 4, 1, 0, 2, 1, 1, 4, 0, 48, 6, 4, 0, 4, 0, 5, 0]), true⟩]

/-- Classes of rfc3412.py the transcription of the standard has no type for. -/
def beyond : List String :=
  []

/-- Constants of rfc3412.py and the values the standard gives them. -/
def constants : List Constant :=
  []

/-- Constants of rfc3412.py the transcription of the standard has no value for. -/
def others : List String :=
  []

def standard : Standard := ⟨Verif.Rfc3412.asModule, entries, beyond, constants, others⟩

end Rfc3412
end Std
end Verif
