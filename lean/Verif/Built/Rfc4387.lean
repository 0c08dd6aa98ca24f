import Verif.Spec.Built
import Verif.Std.Rfc4387

/-! What rfc4387.py implements, where that is not the standard (generated by tools/builtgen.py). -/

namespace Verif
namespace Built
namespace Rfc4387

open Asn1 Verif.Std Spec.X680 Spec.Built

def description : Description :=
  ⟨Verif.Rfc4387.asModule,
   []⟩

end Rfc4387
end Built
end Verif
