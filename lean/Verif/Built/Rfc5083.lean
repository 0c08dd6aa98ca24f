import Verif.Spec.Built
import Verif.Std.Rfc5083

/-! What rfc5083.py implements, where that is not the standard (generated by tools/builtgen.py). -/

namespace Verif
namespace Built
namespace Rfc5083

open Asn1 Verif.Std Spec.X680 Spec.Built

def description : Description :=
  ⟨Verif.Rfc5083.asModule,
   [⟨"rfc5083.AuthEnvelopedData", Verif.Rfc5083.AuthEnvelopedData, Std.Rfc5083.AuthEnvelopedData⟩]⟩

end Rfc5083
end Built
end Verif
