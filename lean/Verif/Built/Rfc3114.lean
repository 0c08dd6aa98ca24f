import Verif.Spec.Built
import Verif.Std.Rfc3114

/-! What rfc3114.py implements, where that is not the standard (generated by tools/builtgen.py). -/

namespace Verif
namespace Built
namespace Rfc3114

open Asn1 Verif.Std Spec.X680 Spec.Built

def description : Description :=
  ⟨Verif.Rfc3114.asModule,
   [⟨"rfc3114.Amoco_SecurityClassification", Verif.Rfc3114.Amoco_SecurityClassification, Std.Rfc3114.Amoco_SecurityClassification⟩,
    ⟨"rfc3114.Caterpillar_SecurityClassification", Verif.Rfc3114.Caterpillar_SecurityClassification, Std.Rfc3114.Caterpillar_SecurityClassification⟩,
    ⟨"rfc3114.Whirlpool_SecurityClassification", Verif.Rfc3114.Whirlpool_SecurityClassification, Std.Rfc3114.Whirlpool_SecurityClassification⟩,
    ⟨"rfc3114.SecurityCategoryValues", Verif.Rfc3114.SecurityCategoryValues, Std.Rfc3114.SecurityCategoryValues⟩]⟩

end Rfc3114
end Built
end Verif
