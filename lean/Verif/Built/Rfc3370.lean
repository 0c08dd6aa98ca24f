import Verif.Spec.Built
import Verif.Std.Rfc3370
import Verif.Built.Rfc5280
import Verif.Built.Rfc5753
import Verif.Built.Rfc8018
import Verif.Std.Rfc3279
import Verif.Std.Rfc5280
import Verif.Std.Rfc5753
import Verif.Std.Rfc8018

/-! What rfc3370.py implements, where that is not the standard (generated by tools/builtgen.py). -/

namespace Verif
namespace Built
namespace Rfc3370

open Asn1 Verif.Std Spec.X680 Spec.Built

/-- `CBCParameter ::=`, changed or supplied -/
def CBCParameter : Ty :=
  Built.Rfc5753.IV

/-- `RC2CBCParameter ::=`, changed or supplied -/
def RC2CBCParameter : Ty :=
  Std.Rfc8018.RC2_CBC_Parameter

/-- `DHDomainParameters ::=`, changed or supplied -/
def DHDomainParameters : Ty :=
  Std.Rfc3279.DomainParameters

/-- `RC2-CBC-Parameter ::=`, changed or supplied -/
def RC2_CBC_Parameter : Ty :=
  Std.Rfc8018.RC2_CBC_Parameter

def description : Description :=
  ⟨Verif.Rfc3370.asModule,
   [⟨"rfc3370.AlgorithmIdentifier", Verif.Rfc3370.AlgorithmIdentifier, Std.Rfc5280.AlgorithmIdentifier⟩,
    ⟨"rfc3370.DHPublicKey", Verif.Rfc3370.DHPublicKey, Std.Rfc3279.DHPublicKey⟩,
    ⟨"rfc3370.DomainParameters", Verif.Rfc3370.DomainParameters, Std.Rfc3279.DomainParameters⟩,
    ⟨"rfc3370.DHDomainParameters", Verif.Rfc3370.DHDomainParameters, Built.Rfc3370.DHDomainParameters⟩,
    ⟨"rfc3370.Dss_Parms", Verif.Rfc3370.Dss_Parms, Std.Rfc3279.Dss_Parms⟩,
    ⟨"rfc3370.Dss_Sig_Value", Verif.Rfc3370.Dss_Sig_Value, Std.Rfc3279.Dss_Sig_Value⟩,
    ⟨"rfc3370.RSAPublicKey", Verif.Rfc3370.RSAPublicKey, Std.Rfc3279.RSAPublicKey⟩,
    ⟨"rfc3370.ValidationParms", Verif.Rfc3370.ValidationParms, Std.Rfc3279.ValidationParms⟩,
    ⟨"rfc3370.CBCParameter", Verif.Rfc3370.CBCParameter, Built.Rfc3370.CBCParameter⟩,
    ⟨"rfc3370.KeyWrapAlgorithm", Verif.Rfc3370.KeyWrapAlgorithm, Std.Rfc3370.KeyWrapAlgorithm⟩,
    ⟨"rfc3370.RC2_CBC_Parameter", Verif.Rfc3370.RC2_CBC_Parameter, Built.Rfc3370.RC2_CBC_Parameter⟩,
    ⟨"rfc3370.RC2CBCParameter", Verif.Rfc3370.RC2CBCParameter, Built.Rfc3370.RC2CBCParameter⟩,
    ⟨"rfc3370.PBKDF2_params", Verif.Rfc3370.PBKDF2_params, Std.Rfc8018.PBKDF2_params⟩,
    ⟨"rfc3370.RC2ParameterVersion", Verif.Rfc3370.RC2ParameterVersion, Std.Rfc3370.RC2ParameterVersion⟩,
    ⟨"rfc3370.RC2wrapParameter", Verif.Rfc3370.RC2wrapParameter, Std.Rfc3370.RC2wrapParameter⟩,
    ⟨"rfc3370.Dss_Pub_Key", Verif.Rfc3370.Dss_Pub_Key, Std.Rfc3370.Dss_Pub_Key⟩]⟩

end Rfc3370
end Built
end Verif
