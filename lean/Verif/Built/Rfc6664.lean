import Verif.Spec.Built
import Verif.Std.Rfc6664
import Verif.Built.Rfc5280
import Verif.Built.Rfc5480
import Verif.Std.Rfc3279
import Verif.Std.Rfc5280
import Verif.Std.Rfc5480

/-! What rfc6664.py implements, where that is not the standard (generated by tools/builtgen.py). -/

namespace Verif
namespace Built
namespace Rfc6664

open Asn1 Verif.Std Spec.X680 Spec.Built

/-- `RsaSsa-Pss-sig-caps ::=`, changed or supplied -/
def RsaSsa_Pss_sig_caps : Ty :=
  SEQUENCE [
    mandatory "hashAlg" Std.Rfc5280.AlgorithmIdentifier,
    optional "maskAlg" Std.Rfc5280.AlgorithmIdentifier,
    default "trailerField" INTEGER (.int 1)]

/-- `DSAKeyCapabilities ::=`, changed or supplied -/
def DSAKeyCapabilities : Ty :=
  CHOICE [
    mandatory "keySizes" (explicit .context 0 (SEQUENCE [
      mandatory "minKeySize" Std.Rfc6664.DSAKeySize,
      optional "maxKeySize" Std.Rfc6664.DSAKeySize,
      optional "maxSizeP" (explicit .context 1 INTEGER),
      optional "maxSizeQ" (explicit .context 2 INTEGER),
      optional "maxSizeG" (explicit .context 3 INTEGER)])),
    mandatory "keyParams" (explicit .context 1 Std.Rfc3279.Dss_Parms)]

def description : Description :=
  ⟨Verif.Rfc6664.asModule,
   [⟨"rfc6664.AlgorithmIdentifier", Verif.Rfc6664.AlgorithmIdentifier, Std.Rfc5280.AlgorithmIdentifier⟩,
    ⟨"rfc6664.Dss_Parms", Verif.Rfc6664.Dss_Parms, Std.Rfc3279.Dss_Parms⟩,
    ⟨"rfc6664.ECParameters", Verif.Rfc6664.ECParameters, Std.Rfc5480.ECParameters⟩,
    ⟨"rfc6664.RSAKeySize", Verif.Rfc6664.RSAKeySize, Std.Rfc6664.RSAKeySize⟩,
    ⟨"rfc6664.RSAKeyCapabilities", Verif.Rfc6664.RSAKeyCapabilities, Std.Rfc6664.RSAKeyCapabilities⟩,
    ⟨"rfc6664.RsaSsa_Pss_sig_caps", Verif.Rfc6664.RsaSsa_Pss_sig_caps, Built.Rfc6664.RsaSsa_Pss_sig_caps⟩,
    ⟨"rfc6664.DSAKeySize", Verif.Rfc6664.DSAKeySize, Std.Rfc6664.DSAKeySize⟩,
    ⟨"rfc6664.DSAKeyCapabilities", Verif.Rfc6664.DSAKeyCapabilities, Built.Rfc6664.DSAKeyCapabilities⟩,
    ⟨"rfc6664.EC_SMimeCaps", Verif.Rfc6664.EC_SMimeCaps, Std.Rfc6664.EC_SMimeCaps⟩]⟩

end Rfc6664
end Built
end Verif
