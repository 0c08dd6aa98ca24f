import Verif.Spec.Built
import Verif.Std.Rfc4043

/-! What rfc4043.py implements, where that is not the standard (generated by tools/builtgen.py). -/

namespace Verif
namespace Built
namespace Rfc4043

open Asn1 Verif.Std Spec.X680 Spec.Built

def description : Description :=
  ⟨Verif.Rfc4043.asModule,
   [⟨"rfc4043.PermanentIdentifier", Verif.Rfc4043.PermanentIdentifier, Std.Rfc4043.PermanentIdentifier⟩]⟩

end Rfc4043
end Built
end Verif
