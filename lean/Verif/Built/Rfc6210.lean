import Verif.Spec.Built
import Verif.Std.Rfc6210

/-! What rfc6210.py implements, where that is not the standard (generated by tools/builtgen.py). -/

namespace Verif
namespace Built
namespace Rfc6210

open Asn1 Verif.Std Spec.X680 Spec.Built

def description : Description :=
  ⟨Verif.Rfc6210.asModule,
   [⟨"rfc6210.MD5_XOR_EXPERIMENT", Verif.Rfc6210.MD5_XOR_EXPERIMENT, Std.Rfc6210.MD5_XOR_EXPERIMENT⟩]⟩

end Rfc6210
end Built
end Verif
