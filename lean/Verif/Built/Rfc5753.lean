import Verif.Spec.Built
import Verif.Std.Rfc5753
import Verif.Built.Rfc5280
import Verif.Built.Rfc5480
import Verif.Std.Rfc5280
import Verif.Std.Rfc5480
import Verif.Std.Rfc5652

/-! What rfc5753.py implements, where that is not the standard (generated by tools/builtgen.py). -/

namespace Verif
namespace Built
namespace Rfc5753

open Asn1 Verif.Std Spec.X680 Spec.Built

/-- `IV ::=`, changed or supplied -/
def IV : Ty :=
  OCTET_STRING

/-- `CBCParameter ::=` -/
def CBCParameter : Ty :=
  Built.Rfc5753.IV

def description : Description :=
  ⟨Verif.Rfc5753.asModule,
   [⟨"rfc5753.AlgorithmIdentifier", Verif.Rfc5753.AlgorithmIdentifier, Std.Rfc5280.AlgorithmIdentifier⟩,
    ⟨"rfc5753.OriginatorPublicKey", Verif.Rfc5753.OriginatorPublicKey, Std.Rfc5652.OriginatorPublicKey⟩,
    ⟨"rfc5753.UserKeyingMaterial", Verif.Rfc5753.UserKeyingMaterial, Std.Rfc5652.UserKeyingMaterial⟩,
    ⟨"rfc5753.ECDSA_Sig_Value", Verif.Rfc5753.ECDSA_Sig_Value, Std.Rfc5480.ECDSA_Sig_Value⟩,
    ⟨"rfc5753.ECParameters", Verif.Rfc5753.ECParameters, Std.Rfc5480.ECParameters⟩,
    ⟨"rfc5753.ECPoint", Verif.Rfc5753.ECPoint, Std.Rfc5480.ECPoint⟩,
    ⟨"rfc5753.IV", Verif.Rfc5753.IV, Built.Rfc5753.IV⟩,
    ⟨"rfc5753.CBCParameter", Verif.Rfc5753.CBCParameter, Built.Rfc5753.CBCParameter⟩,
    ⟨"rfc5753.KeyWrapAlgorithm", Verif.Rfc5753.KeyWrapAlgorithm, Std.Rfc5753.KeyWrapAlgorithm⟩,
    ⟨"rfc5753.ECC_CMS_SharedInfo", Verif.Rfc5753.ECC_CMS_SharedInfo, Std.Rfc5753.ECC_CMS_SharedInfo⟩,
    ⟨"rfc5753.MQVuserKeyingMaterial", Verif.Rfc5753.MQVuserKeyingMaterial, Std.Rfc5753.MQVuserKeyingMaterial⟩]⟩

end Rfc5753
end Built
end Verif
