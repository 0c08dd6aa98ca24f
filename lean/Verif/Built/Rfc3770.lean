import Verif.Spec.Built
import Verif.Std.Rfc3770

/-! What rfc3770.py implements, where that is not the standard (generated by tools/builtgen.py). -/

namespace Verif
namespace Built
namespace Rfc3770

open Asn1 Verif.Std Spec.X680 Spec.Built

def description : Description :=
  ⟨Verif.Rfc3770.asModule,
   [⟨"rfc3770.SSID", Verif.Rfc3770.SSID, Std.Rfc3770.SSID⟩,
    ⟨"rfc3770.SSIDList", Verif.Rfc3770.SSIDList, Std.Rfc3770.SSIDList⟩]⟩

end Rfc3770
end Built
end Verif
