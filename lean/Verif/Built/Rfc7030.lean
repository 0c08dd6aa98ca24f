import Verif.Spec.Built
import Verif.Std.Rfc7030
import Verif.Std.Rfc5652

/-! What rfc7030.py implements, where that is not the standard (generated by tools/builtgen.py). -/

namespace Verif
namespace Built
namespace Rfc7030

open Asn1 Verif.Std Spec.X680 Spec.Built

def description : Description :=
  ⟨Verif.Rfc7030.asModule,
   [⟨"rfc7030.Attribute", Verif.Rfc7030.Attribute, Std.Rfc5652.Attribute⟩,
    ⟨"rfc7030.AsymmetricDecryptKeyIdentifier", Verif.Rfc7030.AsymmetricDecryptKeyIdentifier, Std.Rfc7030.AsymmetricDecryptKeyIdentifier⟩,
    ⟨"rfc7030.AttrOrOID", Verif.Rfc7030.AttrOrOID, Std.Rfc7030.AttrOrOID⟩,
    ⟨"rfc7030.CsrAttrs", Verif.Rfc7030.CsrAttrs, Std.Rfc7030.CsrAttrs⟩]⟩

end Rfc7030
end Built
end Verif
