import Verif.Spec.Built
import Verif.Std.Rfc3274

/-! What rfc3274.py implements, where that is not the standard (generated by tools/builtgen.py). -/

namespace Verif
namespace Built
namespace Rfc3274

open Asn1 Verif.Std Spec.X680 Spec.Built

def description : Description :=
  ⟨Verif.Rfc3274.asModule,
   [⟨"rfc3274.CompressionAlgorithmIdentifier", Verif.Rfc3274.CompressionAlgorithmIdentifier, Std.Rfc3274.CompressionAlgorithmIdentifier⟩,
    ⟨"rfc3274.CompressedData", Verif.Rfc3274.CompressedData, Std.Rfc3274.CompressedData⟩]⟩

end Rfc3274
end Built
end Verif
