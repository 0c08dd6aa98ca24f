import Verif.Spec.Built
import Verif.Std.Rfc6486

/-! What rfc6486.py implements, where that is not the standard (generated by tools/builtgen.py). -/

namespace Verif
namespace Built
namespace Rfc6486

open Asn1 Verif.Std Spec.X680 Spec.Built

def description : Description :=
  ⟨Verif.Rfc6486.asModule,
   [⟨"rfc6486.FileAndHash", Verif.Rfc6486.FileAndHash, Std.Rfc6486.FileAndHash⟩,
    ⟨"rfc6486.Manifest", Verif.Rfc6486.Manifest, Std.Rfc6486.Manifest⟩]⟩

end Rfc6486
end Built
end Verif
