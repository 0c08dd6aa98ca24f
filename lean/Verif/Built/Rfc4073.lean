import Verif.Spec.Built
import Verif.Std.Rfc4073

/-! What rfc4073.py implements, where that is not the standard (generated by tools/builtgen.py). -/

namespace Verif
namespace Built
namespace Rfc4073

open Asn1 Verif.Std Spec.X680 Spec.Built

def description : Description :=
  ⟨Verif.Rfc4073.asModule,
   [⟨"rfc4073.ContentCollection", Verif.Rfc4073.ContentCollection, Std.Rfc4073.ContentCollection⟩,
    ⟨"rfc4073.ContentWithAttributes", Verif.Rfc4073.ContentWithAttributes, Std.Rfc4073.ContentWithAttributes⟩]⟩

end Rfc4073
end Built
end Verif
