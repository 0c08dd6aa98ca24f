import Verif.Spec.Built
import Verif.Std.Rfc8418
import Verif.Std.Rfc5652

/-! What rfc8418.py implements, where that is not the standard (generated by tools/builtgen.py). -/

namespace Verif
namespace Built
namespace Rfc8418

open Asn1 Verif.Std Spec.X680 Spec.Built

def description : Description :=
  ⟨Verif.Rfc8418.asModule,
   [⟨"rfc8418.KeyEncryptionAlgorithmIdentifier", Verif.Rfc8418.KeyEncryptionAlgorithmIdentifier, Std.Rfc5652.KeyEncryptionAlgorithmIdentifier⟩,
    ⟨"rfc8418.KeyWrapAlgorithmIdentifier", Verif.Rfc8418.KeyWrapAlgorithmIdentifier, Std.Rfc8418.KeyWrapAlgorithmIdentifier⟩]⟩

end Rfc8418
end Built
end Verif
