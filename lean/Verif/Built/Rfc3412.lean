import Verif.Spec.Built
import Verif.Std.Rfc3412
import Verif.Built.Rfc1905
import Verif.Std.Rfc1905

/-! What rfc3412.py implements, where that is not the standard (generated by tools/builtgen.py). -/

namespace Verif
namespace Built
namespace Rfc3412

open Asn1 Verif.Std Spec.X680 Spec.Built

/-- `ScopedPDU ::=`, changed or supplied -/
def ScopedPDU : Ty :=
  SEQUENCE [
    mandatory "contextEngineId" OCTET_STRING,
    mandatory "contextName" OCTET_STRING,
    mandatory "data" Built.Rfc1905.PDUs]

/-- `ScopedPduData ::=` -/
def ScopedPduData : Ty :=
  CHOICE [
    mandatory "plaintext" Built.Rfc3412.ScopedPDU,
    mandatory "encryptedPDU" OCTET_STRING]

/-- `SNMPv3Message ::=` -/
def SNMPv3Message : Ty :=
  SEQUENCE [
    mandatory "msgVersion" (constrained (RANGE 0 2147483647) INTEGER),
    mandatory "msgGlobalData" Std.Rfc3412.HeaderData,
    mandatory "msgSecurityParameters" OCTET_STRING,
    mandatory "msgData" Built.Rfc3412.ScopedPduData]

def description : Description :=
  ⟨Verif.Rfc3412.asModule,
   [⟨"rfc3412.ScopedPDU", Verif.Rfc3412.ScopedPDU, Built.Rfc3412.ScopedPDU⟩,
    ⟨"rfc3412.ScopedPduData", Verif.Rfc3412.ScopedPduData, Built.Rfc3412.ScopedPduData⟩,
    ⟨"rfc3412.HeaderData", Verif.Rfc3412.HeaderData, Std.Rfc3412.HeaderData⟩,
    ⟨"rfc3412.SNMPv3Message", Verif.Rfc3412.SNMPv3Message, Built.Rfc3412.SNMPv3Message⟩]⟩

end Rfc3412
end Built
end Verif
