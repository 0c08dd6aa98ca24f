import Verif.Spec.Built
import Verif.Std.Rfc4055
import Verif.Built.Rfc5280
import Verif.Std.Rfc5280

/-! What rfc4055.py implements, where that is not the standard (generated by tools/builtgen.py). -/

namespace Verif
namespace Built
namespace Rfc4055

open Asn1 Verif.Std Spec.X680 Spec.Built

/-- `RSASSA-PSS-params ::=`, changed or supplied -/
def RSASSA_PSS_params : Ty :=
  SEQUENCE [
    optional "hashAlgorithm" (explicit .context 0 Std.Rfc5280.AlgorithmIdentifier),
    optional "maskGenAlgorithm" (explicit .context 1 Std.Rfc5280.AlgorithmIdentifier),
    default "saltLength" (explicit .context 2 INTEGER) (.int 20),
    default "trailerField" (explicit .context 3 INTEGER) (.int 1)]

/-- `RSAES-OAEP-params ::=`, changed or supplied -/
def RSAES_OAEP_params : Ty :=
  SEQUENCE [
    optional "hashFunc" (explicit .context 0 Std.Rfc5280.AlgorithmIdentifier),
    optional "maskGenFunc" (explicit .context 1 Std.Rfc5280.AlgorithmIdentifier),
    optional "pSourceFunc" (explicit .context 2 Std.Rfc5280.AlgorithmIdentifier)]

def description : Description :=
  ⟨Verif.Rfc4055.asModule,
   [⟨"rfc4055.RSAPublicKey", Verif.Rfc4055.RSAPublicKey, Std.Rfc4055.RSAPublicKey⟩,
    ⟨"rfc4055.HashAlgorithm", Verif.Rfc4055.HashAlgorithm, Std.Rfc4055.HashAlgorithm⟩,
    ⟨"rfc4055.MaskGenAlgorithm", Verif.Rfc4055.MaskGenAlgorithm, Std.Rfc4055.MaskGenAlgorithm⟩,
    ⟨"rfc4055.RSAES_OAEP_params", Verif.Rfc4055.RSAES_OAEP_params, Built.Rfc4055.RSAES_OAEP_params⟩,
    ⟨"rfc4055.RSASSA_PSS_params", Verif.Rfc4055.RSASSA_PSS_params, Built.Rfc4055.RSASSA_PSS_params⟩]⟩

end Rfc4055
end Built
end Verif
