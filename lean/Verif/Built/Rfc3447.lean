import Verif.Spec.Built
import Verif.Std.Rfc3447

/-! What rfc3447.py implements, where that is not the standard (generated by tools/builtgen.py). -/

namespace Verif
namespace Built
namespace Rfc3447

open Asn1 Verif.Std Spec.X680 Spec.Built

def description : Description :=
  ⟨Verif.Rfc3447.asModule,
   [⟨"rfc3447.RSAPrivateKey", Verif.Rfc3447.RSAPrivateKey, Std.Rfc3447.RSAPrivateKey⟩,
    ⟨"rfc3447.OtherPrimeInfo", Verif.Rfc3447.OtherPrimeInfo, Std.Rfc3447.OtherPrimeInfo⟩,
    ⟨"rfc3447.OtherPrimeInfos", Verif.Rfc3447.OtherPrimeInfos, Std.Rfc3447.OtherPrimeInfos⟩]⟩

end Rfc3447
end Built
end Verif
