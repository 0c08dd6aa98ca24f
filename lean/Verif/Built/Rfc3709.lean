import Verif.Spec.Built
import Verif.Std.Rfc3709

/-! What rfc3709.py implements, where that is not the standard (generated by tools/builtgen.py). -/

namespace Verif
namespace Built
namespace Rfc3709

open Asn1 Verif.Std Spec.X680 Spec.Built

def description : Description :=
  ⟨Verif.Rfc3709.asModule,
   [⟨"rfc3709.HashAlgAndValue", Verif.Rfc3709.HashAlgAndValue, Std.Rfc3709.HashAlgAndValue⟩,
    ⟨"rfc3709.LogotypeDetails", Verif.Rfc3709.LogotypeDetails, Std.Rfc3709.LogotypeDetails⟩,
    ⟨"rfc3709.LogotypeAudioInfo", Verif.Rfc3709.LogotypeAudioInfo, Std.Rfc3709.LogotypeAudioInfo⟩,
    ⟨"rfc3709.LogotypeAudio", Verif.Rfc3709.LogotypeAudio, Std.Rfc3709.LogotypeAudio⟩,
    ⟨"rfc3709.LogotypeImageType", Verif.Rfc3709.LogotypeImageType, Std.Rfc3709.LogotypeImageType⟩,
    ⟨"rfc3709.LogotypeImageResolution", Verif.Rfc3709.LogotypeImageResolution, Std.Rfc3709.LogotypeImageResolution⟩,
    ⟨"rfc3709.LogotypeImageInfo", Verif.Rfc3709.LogotypeImageInfo, Std.Rfc3709.LogotypeImageInfo⟩,
    ⟨"rfc3709.LogotypeImage", Verif.Rfc3709.LogotypeImage, Std.Rfc3709.LogotypeImage⟩,
    ⟨"rfc3709.LogotypeData", Verif.Rfc3709.LogotypeData, Std.Rfc3709.LogotypeData⟩,
    ⟨"rfc3709.LogotypeReference", Verif.Rfc3709.LogotypeReference, Std.Rfc3709.LogotypeReference⟩,
    ⟨"rfc3709.LogotypeInfo", Verif.Rfc3709.LogotypeInfo, Std.Rfc3709.LogotypeInfo⟩,
    ⟨"rfc3709.OtherLogotypeInfo", Verif.Rfc3709.OtherLogotypeInfo, Std.Rfc3709.OtherLogotypeInfo⟩,
    ⟨"rfc3709.LogotypeExtn", Verif.Rfc3709.LogotypeExtn, Std.Rfc3709.LogotypeExtn⟩]⟩

end Rfc3709
end Built
end Verif
