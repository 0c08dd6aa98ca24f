import Verif.Spec.Built
import Verif.Std.Rfc8103

/-! What rfc8103.py implements, where that is not the standard (generated by tools/builtgen.py). -/

namespace Verif
namespace Built
namespace Rfc8103

open Asn1 Verif.Std Spec.X680 Spec.Built

def description : Description :=
  ⟨Verif.Rfc8103.asModule,
   [⟨"rfc8103.AEADChaCha20Poly1305Nonce", Verif.Rfc8103.AEADChaCha20Poly1305Nonce, Std.Rfc8103.AEADChaCha20Poly1305Nonce⟩]⟩

end Rfc8103
end Built
end Verif
