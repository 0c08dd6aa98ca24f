import Verif.Spec.Built
import Verif.Std.Rfc3820

/-! What rfc3820.py implements, where that is not the standard (generated by tools/builtgen.py). -/

namespace Verif
namespace Built
namespace Rfc3820

open Asn1 Verif.Std Spec.X680 Spec.Built

def description : Description :=
  ⟨Verif.Rfc3820.asModule,
   [⟨"rfc3820.ProxyCertPathLengthConstraint", Verif.Rfc3820.ProxyCertPathLengthConstraint, Std.Rfc3820.ProxyCertPathLengthConstraint⟩,
    ⟨"rfc3820.ProxyPolicy", Verif.Rfc3820.ProxyPolicy, Std.Rfc3820.ProxyPolicy⟩,
    ⟨"rfc3820.ProxyCertInfoExtension", Verif.Rfc3820.ProxyCertInfoExtension, Std.Rfc3820.ProxyCertInfoExtension⟩]⟩

end Rfc3820
end Built
end Verif
