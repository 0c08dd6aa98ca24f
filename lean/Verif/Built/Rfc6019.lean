import Verif.Spec.Built
import Verif.Std.Rfc6019

/-! What rfc6019.py implements, where that is not the standard (generated by tools/builtgen.py). -/

namespace Verif
namespace Built
namespace Rfc6019

open Asn1 Verif.Std Spec.X680 Spec.Built

def description : Description :=
  ⟨Verif.Rfc6019.asModule,
   [⟨"rfc6019.BinaryTime", Verif.Rfc6019.BinaryTime, Std.Rfc6019.BinaryTime⟩,
    ⟨"rfc6019.BinarySigningTime", Verif.Rfc6019.BinarySigningTime, Std.Rfc6019.BinarySigningTime⟩]⟩

end Rfc6019
end Built
end Verif
