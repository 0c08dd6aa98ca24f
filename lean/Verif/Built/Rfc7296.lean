import Verif.Spec.Built
import Verif.Std.Rfc7296

/-! What rfc7296.py implements, where that is not the standard (generated by tools/builtgen.py). -/

namespace Verif
namespace Built
namespace Rfc7296

open Asn1 Verif.Std Spec.X680 Spec.Built

def description : Description :=
  ⟨Verif.Rfc7296.asModule,
   [⟨"rfc7296.CertificateOrCRL", Verif.Rfc7296.CertificateOrCRL, Std.Rfc7296.CertificateOrCRL⟩,
    ⟨"rfc7296.CertificateBundle", Verif.Rfc7296.CertificateBundle, Std.Rfc7296.CertificateBundle⟩]⟩

end Rfc7296
end Built
end Verif
