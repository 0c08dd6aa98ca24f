import Verif.Spec.Built
import Verif.Std.Rfc5649
import Verif.Built.Rfc5280
import Verif.Std.Rfc5280

/-! What rfc5649.py implements, where that is not the standard (generated by tools/builtgen.py). -/

namespace Verif
namespace Built
namespace Rfc5649

open Asn1 Verif.Std Spec.X680 Spec.Built

def description : Description :=
  ⟨Verif.Rfc5649.asModule,
   [⟨"rfc5649.AlgorithmIdentifier", Verif.Rfc5649.AlgorithmIdentifier, Std.Rfc5280.AlgorithmIdentifier⟩]⟩

end Rfc5649
end Built
end Verif
