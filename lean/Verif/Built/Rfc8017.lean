import Verif.Spec.Built
import Verif.Std.Rfc8017
import Verif.Built.Rfc4055
import Verif.Built.Rfc5280
import Verif.Std.Rfc4055
import Verif.Std.Rfc5280

/-! What rfc8017.py implements, where that is not the standard (generated by tools/builtgen.py). -/

namespace Verif
namespace Built
namespace Rfc8017

open Asn1 Verif.Std Spec.X680 Spec.Built

/-- `RSAES-OAEP-params ::=`, changed or supplied -/
def RSAES_OAEP_params : Ty :=
  Built.Rfc4055.RSAES_OAEP_params

/-- `RSASSA-PSS-params ::=`, changed or supplied -/
def RSASSA_PSS_params : Ty :=
  Built.Rfc4055.RSASSA_PSS_params

def description : Description :=
  ⟨Verif.Rfc8017.asModule,
   [⟨"rfc8017.AlgorithmIdentifier", Verif.Rfc8017.AlgorithmIdentifier, Std.Rfc5280.AlgorithmIdentifier⟩,
    ⟨"rfc8017.DigestAlgorithm", Verif.Rfc8017.DigestAlgorithm, Std.Rfc8017.DigestAlgorithm⟩,
    ⟨"rfc8017.HashAlgorithm", Verif.Rfc8017.HashAlgorithm, Std.Rfc8017.HashAlgorithm⟩,
    ⟨"rfc8017.MaskGenAlgorithm", Verif.Rfc8017.MaskGenAlgorithm, Std.Rfc8017.MaskGenAlgorithm⟩,
    ⟨"rfc8017.PSourceAlgorithm", Verif.Rfc8017.PSourceAlgorithm, Std.Rfc8017.PSourceAlgorithm⟩,
    ⟨"rfc8017.EncodingParameters", Verif.Rfc8017.EncodingParameters, Std.Rfc8017.EncodingParameters⟩,
    ⟨"rfc8017.Version", Verif.Rfc8017.Version, Std.Rfc8017.Version⟩,
    ⟨"rfc8017.TrailerField", Verif.Rfc8017.TrailerField, Std.Rfc8017.TrailerField⟩,
    ⟨"rfc8017.RSAPublicKey", Verif.Rfc8017.RSAPublicKey, Std.Rfc8017.RSAPublicKey⟩,
    ⟨"rfc8017.OtherPrimeInfo", Verif.Rfc8017.OtherPrimeInfo, Std.Rfc8017.OtherPrimeInfo⟩,
    ⟨"rfc8017.OtherPrimeInfos", Verif.Rfc8017.OtherPrimeInfos, Std.Rfc8017.OtherPrimeInfos⟩,
    ⟨"rfc8017.RSAPrivateKey", Verif.Rfc8017.RSAPrivateKey, Std.Rfc8017.RSAPrivateKey⟩,
    ⟨"rfc8017.RSAES_OAEP_params", Verif.Rfc8017.RSAES_OAEP_params, Built.Rfc8017.RSAES_OAEP_params⟩,
    ⟨"rfc8017.RSASSA_PSS_params", Verif.Rfc8017.RSASSA_PSS_params, Built.Rfc8017.RSASSA_PSS_params⟩,
    ⟨"rfc8017.DigestInfo", Verif.Rfc8017.DigestInfo, Std.Rfc8017.DigestInfo⟩]⟩

end Rfc8017
end Built
end Verif
