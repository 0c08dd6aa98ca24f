import Verif.Spec.Built
import Verif.Std.Rfc7633

/-! What rfc7633.py implements, where that is not the standard (generated by tools/builtgen.py). -/

namespace Verif
namespace Built
namespace Rfc7633

open Asn1 Verif.Std Spec.X680 Spec.Built

def description : Description :=
  ⟨Verif.Rfc7633.asModule,
   [⟨"rfc7633.Features", Verif.Rfc7633.Features, Std.Rfc7633.Features⟩]⟩

end Rfc7633
end Built
end Verif
