import Verif.Spec.Built
import Verif.Std.Rfc4334

/-! What rfc4334.py implements, where that is not the standard (generated by tools/builtgen.py). -/

namespace Verif
namespace Built
namespace Rfc4334

open Asn1 Verif.Std Spec.X680 Spec.Built

/-- `SSID ::=`, changed or supplied -/
def SSID : Ty :=
  OCTET_STRING

/-- `SSIDList ::=` -/
def SSIDList : Ty :=
  constrained (SIZE_MAX 1) (SEQUENCE_OF Built.Rfc4334.SSID)

def description : Description :=
  ⟨Verif.Rfc4334.asModule,
   [⟨"rfc4334.SSID", Verif.Rfc4334.SSID, Built.Rfc4334.SSID⟩,
    ⟨"rfc4334.SSIDList", Verif.Rfc4334.SSIDList, Built.Rfc4334.SSIDList⟩]⟩

end Rfc4334
end Built
end Verif
