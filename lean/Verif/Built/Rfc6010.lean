import Verif.Spec.Built
import Verif.Std.Rfc6010
import Verif.Built.Rfc5280
import Verif.Std.Rfc5280

/-! What rfc6010.py implements, where that is not the standard (generated by tools/builtgen.py). -/

namespace Verif
namespace Built
namespace Rfc6010

open Asn1 Verif.Std Spec.X680 Spec.Built

def description : Description :=
  ⟨Verif.Rfc6010.asModule,
   [⟨"rfc6010.AttributeType", Verif.Rfc6010.AttributeType, Std.Rfc5280.AttributeType⟩,
    ⟨"rfc6010.AttributeValue", Verif.Rfc6010.AttributeValue, Std.Rfc5280.AttributeValue⟩,
    ⟨"rfc6010.AttrConstraint", Verif.Rfc6010.AttrConstraint, Std.Rfc6010.AttrConstraint⟩,
    ⟨"rfc6010.AttrConstraintList", Verif.Rfc6010.AttrConstraintList, Std.Rfc6010.AttrConstraintList⟩,
    ⟨"rfc6010.ContentTypeGeneration", Verif.Rfc6010.ContentTypeGeneration, Std.Rfc6010.ContentTypeGeneration⟩,
    ⟨"rfc6010.ContentTypeConstraint", Verif.Rfc6010.ContentTypeConstraint, Std.Rfc6010.ContentTypeConstraint⟩,
    ⟨"rfc6010.CMSContentConstraints", Verif.Rfc6010.CMSContentConstraints, Std.Rfc6010.CMSContentConstraints⟩]⟩

end Rfc6010
end Built
end Verif
