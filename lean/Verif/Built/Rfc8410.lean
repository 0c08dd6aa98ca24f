import Verif.Spec.Built
import Verif.Std.Rfc8410
import Verif.Std.Rfc5652

/-! What rfc8410.py implements, where that is not the standard (generated by tools/builtgen.py). -/

namespace Verif
namespace Built
namespace Rfc8410

open Asn1 Verif.Std Spec.X680 Spec.Built

def description : Description :=
  ⟨Verif.Rfc8410.asModule,
   [⟨"rfc8410.SignatureAlgorithmIdentifier", Verif.Rfc8410.SignatureAlgorithmIdentifier, Std.Rfc5652.SignatureAlgorithmIdentifier⟩,
    ⟨"rfc8410.KeyEncryptionAlgorithmIdentifier", Verif.Rfc8410.KeyEncryptionAlgorithmIdentifier, Std.Rfc5652.KeyEncryptionAlgorithmIdentifier⟩,
    ⟨"rfc8410.CurvePrivateKey", Verif.Rfc8410.CurvePrivateKey, Std.Rfc8410.CurvePrivateKey⟩]⟩

end Rfc8410
end Built
end Verif
