import Verif.Spec.Built
import Verif.Std.Rfc3657

/-! What rfc3657.py implements, where that is not the standard (generated by tools/builtgen.py). -/

namespace Verif
namespace Built
namespace Rfc3657

open Asn1 Verif.Std Spec.X680 Spec.Built

def description : Description :=
  ⟨Verif.Rfc3657.asModule,
   [⟨"rfc3657.Camellia_IV", Verif.Rfc3657.Camellia_IV, Std.Rfc3657.Camellia_IV⟩,
    ⟨"rfc3657.CamelliaSMimeCapability", Verif.Rfc3657.CamelliaSMimeCapability, Std.Rfc3657.CamelliaSMimeCapability⟩]⟩

end Rfc3657
end Built
end Verif
