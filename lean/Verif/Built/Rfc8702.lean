import Verif.Spec.Built
import Verif.Std.Rfc8702
import Verif.Built.Rfc5280
import Verif.Std.Rfc5280

/-! What rfc8702.py implements, where that is not the standard (generated by tools/builtgen.py). -/

namespace Verif
namespace Built
namespace Rfc8702

open Asn1 Verif.Std Spec.X680 Spec.Built

def description : Description :=
  ⟨Verif.Rfc8702.asModule,
   [⟨"rfc8702.AlgorithmIdentifier", Verif.Rfc8702.AlgorithmIdentifier, Std.Rfc5280.AlgorithmIdentifier⟩,
    ⟨"rfc8702.KMACwithSHAKE128_params", Verif.Rfc8702.KMACwithSHAKE128_params, Std.Rfc8702.KMACwithSHAKE128_params⟩,
    ⟨"rfc8702.KMACwithSHAKE256_params", Verif.Rfc8702.KMACwithSHAKE256_params, Std.Rfc8702.KMACwithSHAKE256_params⟩]⟩

end Rfc8702
end Built
end Verif
