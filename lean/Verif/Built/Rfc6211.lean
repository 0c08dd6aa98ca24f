import Verif.Spec.Built
import Verif.Std.Rfc6211
import Verif.Std.Rfc5652

/-! What rfc6211.py implements, where that is not the standard (generated by tools/builtgen.py). -/

namespace Verif
namespace Built
namespace Rfc6211

open Asn1 Verif.Std Spec.X680 Spec.Built

def description : Description :=
  ⟨Verif.Rfc6211.asModule,
   [⟨"rfc6211.DigestAlgorithmIdentifier", Verif.Rfc6211.DigestAlgorithmIdentifier, Std.Rfc5652.DigestAlgorithmIdentifier⟩,
    ⟨"rfc6211.MessageAuthenticationCodeAlgorithm", Verif.Rfc6211.MessageAuthenticationCodeAlgorithm, Std.Rfc5652.MessageAuthenticationCodeAlgorithm⟩,
    ⟨"rfc6211.SignatureAlgorithmIdentifier", Verif.Rfc6211.SignatureAlgorithmIdentifier, Std.Rfc5652.SignatureAlgorithmIdentifier⟩,
    ⟨"rfc6211.CMSAlgorithmProtection", Verif.Rfc6211.CMSAlgorithmProtection, Std.Rfc6211.CMSAlgorithmProtection⟩]⟩

end Rfc6211
end Built
end Verif
