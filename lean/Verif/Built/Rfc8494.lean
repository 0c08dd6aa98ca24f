import Verif.Spec.Built
import Verif.Std.Rfc8494

/-! What rfc8494.py implements, where that is not the standard (generated by tools/builtgen.py). -/

namespace Verif
namespace Built
namespace Rfc8494

open Asn1 Verif.Std Spec.X680 Spec.Built

def description : Description :=
  ⟨Verif.Rfc8494.asModule,
   [⟨"rfc8494.AlgorithmID_ShortForm", Verif.Rfc8494.AlgorithmID_ShortForm, Std.Rfc8494.AlgorithmID_ShortForm⟩,
    ⟨"rfc8494.ContentType_ShortForm", Verif.Rfc8494.ContentType_ShortForm, Std.Rfc8494.ContentType_ShortForm⟩,
    ⟨"rfc8494.CompressedContentInfo", Verif.Rfc8494.CompressedContentInfo, Std.Rfc8494.CompressedContentInfo⟩,
    ⟨"rfc8494.CompressionAlgorithmIdentifier", Verif.Rfc8494.CompressionAlgorithmIdentifier, Std.Rfc8494.CompressionAlgorithmIdentifier⟩,
    ⟨"rfc8494.CompressedData", Verif.Rfc8494.CompressedData, Std.Rfc8494.CompressedData⟩]⟩

end Rfc8494
end Built
end Verif
