import Verif.Spec.Built
import Verif.Std.Rfc4010

/-! What rfc4010.py implements, where that is not the standard (generated by tools/builtgen.py). -/

namespace Verif
namespace Built
namespace Rfc4010

open Asn1 Verif.Std Spec.X680 Spec.Built

def description : Description :=
  ⟨Verif.Rfc4010.asModule,
   [⟨"rfc4010.SeedIV", Verif.Rfc4010.SeedIV, Std.Rfc4010.SeedIV⟩,
    ⟨"rfc4010.SeedCBCParameter", Verif.Rfc4010.SeedCBCParameter, Std.Rfc4010.SeedCBCParameter⟩,
    ⟨"rfc4010.SeedSMimeCapability", Verif.Rfc4010.SeedSMimeCapability, Std.Rfc4010.SeedSMimeCapability⟩]⟩

end Rfc4010
end Built
end Verif
