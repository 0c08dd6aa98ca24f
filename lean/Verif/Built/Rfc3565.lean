import Verif.Spec.Built
import Verif.Std.Rfc3565
import Verif.Built.Rfc5280
import Verif.Std.Rfc5280

/-! What rfc3565.py implements, where that is not the standard (generated by tools/builtgen.py). -/

namespace Verif
namespace Built
namespace Rfc3565

open Asn1 Verif.Std Spec.X680 Spec.Built

def description : Description :=
  ⟨Verif.Rfc3565.asModule,
   [⟨"rfc3565.AlgorithmIdentifier", Verif.Rfc3565.AlgorithmIdentifier, Std.Rfc5280.AlgorithmIdentifier⟩,
    ⟨"rfc3565.AES_IV", Verif.Rfc3565.AES_IV, Std.Rfc3565.AES_IV⟩]⟩

end Rfc3565
end Built
end Verif
