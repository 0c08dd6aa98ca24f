import Verif.Spec.Built
import Verif.Std.Rfc7914

/-! What rfc7914.py implements, where that is not the standard (generated by tools/builtgen.py). -/

namespace Verif
namespace Built
namespace Rfc7914

open Asn1 Verif.Std Spec.X680 Spec.Built

def description : Description :=
  ⟨Verif.Rfc7914.asModule,
   [⟨"rfc7914.Scrypt_params", Verif.Rfc7914.Scrypt_params, Std.Rfc7914.Scrypt_params⟩]⟩

end Rfc7914
end Built
end Verif
