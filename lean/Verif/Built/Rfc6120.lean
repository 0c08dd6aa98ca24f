import Verif.Spec.Built
import Verif.Std.Rfc6120

/-! What rfc6120.py implements, where that is not the standard (generated by tools/builtgen.py). -/

namespace Verif
namespace Built
namespace Rfc6120

open Asn1 Verif.Std Spec.X680 Spec.Built

def description : Description :=
  ⟨Verif.Rfc6120.asModule,
   [⟨"rfc6120.XmppAddr", Verif.Rfc6120.XmppAddr, Std.Rfc6120.XmppAddr⟩]⟩

end Rfc6120
end Built
end Verif
