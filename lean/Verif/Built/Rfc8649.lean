import Verif.Spec.Built
import Verif.Std.Rfc8649

/-! What rfc8649.py implements, where that is not the standard (generated by tools/builtgen.py). -/

namespace Verif
namespace Built
namespace Rfc8649

open Asn1 Verif.Std Spec.X680 Spec.Built

def description : Description :=
  ⟨Verif.Rfc8649.asModule,
   [⟨"rfc8649.HashedRootKey", Verif.Rfc8649.HashedRootKey, Std.Rfc8649.HashedRootKey⟩]⟩

end Rfc8649
end Built
end Verif
