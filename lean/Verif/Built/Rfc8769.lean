import Verif.Spec.Built
import Verif.Std.Rfc8769

/-! What rfc8769.py implements, where that is not the standard (generated by tools/builtgen.py). -/

namespace Verif
namespace Built
namespace Rfc8769

open Asn1 Verif.Std Spec.X680 Spec.Built

def description : Description :=
  ⟨Verif.Rfc8769.asModule,
   []⟩

end Rfc8769
end Built
end Verif
