import Verif.Spec.Built
import Verif.Std.Rfc2437
import Verif.Built.Rfc2459
import Verif.Std.Rfc2459

/-! What rfc2437.py implements, where that is not the standard (generated by tools/builtgen.py). -/

namespace Verif
namespace Built
namespace Rfc2437

open Asn1 Verif.Std Spec.X680 Spec.Built

/-- `RSAES-OAEP-params ::=`, changed or supplied -/
def RSAES_OAEP_params : Ty :=
  SEQUENCE [
    mandatory "hashFunc" (implicit .context 0 Std.Rfc2459.AlgorithmIdentifier),
    mandatory "maskGenFunc" (implicit .context 1 Std.Rfc2459.AlgorithmIdentifier),
    mandatory "pSourceFunc" (implicit .context 2 Std.Rfc2459.AlgorithmIdentifier)]

def description : Description :=
  ⟨Verif.Rfc2437.asModule,
   [⟨"rfc2437.Version", Verif.Rfc2437.Version, Std.Rfc2437.Version⟩,
    ⟨"rfc2437.RSAPrivateKey", Verif.Rfc2437.RSAPrivateKey, Std.Rfc2437.RSAPrivateKey⟩,
    ⟨"rfc2437.RSAPublicKey", Verif.Rfc2437.RSAPublicKey, Std.Rfc2437.RSAPublicKey⟩,
    ⟨"rfc2437.RSAES_OAEP_params", Verif.Rfc2437.RSAES_OAEP_params, Built.Rfc2437.RSAES_OAEP_params⟩]⟩

end Rfc2437
end Built
end Verif
