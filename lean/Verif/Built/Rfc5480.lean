import Verif.Spec.Built
import Verif.Std.Rfc5480
import Verif.Std.Rfc3279

/-! What rfc5480.py implements, where that is not the standard (generated by tools/builtgen.py). -/

namespace Verif
namespace Built
namespace Rfc5480

open Asn1 Verif.Std Spec.X680 Spec.Built

/-- `DSS-Parms ::=`, changed or supplied -/
def DSS_Parms : Ty :=
  Std.Rfc3279.Dss_Parms

def description : Description :=
  ⟨Verif.Rfc5480.asModule,
   [⟨"rfc5480.DHPublicKey", Verif.Rfc5480.DHPublicKey, Std.Rfc5480.DHPublicKey⟩,
    ⟨"rfc5480.DSAPublicKey", Verif.Rfc5480.DSAPublicKey, Std.Rfc5480.DSAPublicKey⟩,
    ⟨"rfc5480.ValidationParms", Verif.Rfc5480.ValidationParms, Std.Rfc5480.ValidationParms⟩,
    ⟨"rfc5480.DomainParameters", Verif.Rfc5480.DomainParameters, Std.Rfc5480.DomainParameters⟩,
    ⟨"rfc5480.ECDSA_Sig_Value", Verif.Rfc5480.ECDSA_Sig_Value, Std.Rfc5480.ECDSA_Sig_Value⟩,
    ⟨"rfc5480.ECPoint", Verif.Rfc5480.ECPoint, Std.Rfc5480.ECPoint⟩,
    ⟨"rfc5480.KEA_Parms_Id", Verif.Rfc5480.KEA_Parms_Id, Std.Rfc5480.KEA_Parms_Id⟩,
    ⟨"rfc5480.RSAPublicKey", Verif.Rfc5480.RSAPublicKey, Std.Rfc5480.RSAPublicKey⟩,
    ⟨"rfc5480.DSS_Parms", Verif.Rfc5480.DSS_Parms, Built.Rfc5480.DSS_Parms⟩,
    ⟨"rfc5480.DSA_Sig_Value", Verif.Rfc5480.DSA_Sig_Value, Std.Rfc5480.DSA_Sig_Value⟩,
    ⟨"rfc5480.ECParameters", Verif.Rfc5480.ECParameters, Std.Rfc5480.ECParameters⟩]⟩

end Rfc5480
end Built
end Verif
