import Verif.Spec.Built
import Verif.Std.Rfc2631

/-! What rfc2631.py implements, where that is not the standard (generated by tools/builtgen.py). -/

namespace Verif
namespace Built
namespace Rfc2631

open Asn1 Verif.Std Spec.X680 Spec.Built

def description : Description :=
  ⟨Verif.Rfc2631.asModule,
   [⟨"rfc2631.KeySpecificInfo", Verif.Rfc2631.KeySpecificInfo, Std.Rfc2631.KeySpecificInfo⟩,
    ⟨"rfc2631.OtherInfo", Verif.Rfc2631.OtherInfo, Std.Rfc2631.OtherInfo⟩]⟩

end Rfc2631
end Built
end Verif
