import Verif.Spec.Built
import Verif.Std.Rfc8520

/-! What rfc8520.py implements, where that is not the standard (generated by tools/builtgen.py). -/

namespace Verif
namespace Built
namespace Rfc8520

open Asn1 Verif.Std Spec.X680 Spec.Built

def description : Description :=
  ⟨Verif.Rfc8520.asModule,
   [⟨"rfc8520.MUDURLSyntax", Verif.Rfc8520.MUDURLSyntax, Std.Rfc8520.MUDURLSyntax⟩,
    ⟨"rfc8520.MUDsignerSyntax", Verif.Rfc8520.MUDsignerSyntax, Std.Rfc8520.MUDsignerSyntax⟩]⟩

end Rfc8520
end Built
end Verif
