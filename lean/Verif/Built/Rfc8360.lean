import Verif.Spec.Built
import Verif.Std.Rfc8360
import Verif.Std.Rfc3779

/-! What rfc8360.py implements, where that is not the standard (generated by tools/builtgen.py). -/

namespace Verif
namespace Built
namespace Rfc8360

open Asn1 Verif.Std Spec.X680 Spec.Built

def description : Description :=
  ⟨Verif.Rfc8360.asModule,
   [⟨"rfc8360.IPAddrBlocks", Verif.Rfc8360.IPAddrBlocks, Std.Rfc3779.IPAddrBlocks⟩,
    ⟨"rfc8360.ASIdentifiers", Verif.Rfc8360.ASIdentifiers, Std.Rfc3779.ASIdentifiers⟩]⟩

end Rfc8360
end Built
end Verif
