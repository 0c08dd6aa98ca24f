import Verif.Spec.Built
import Verif.Std.Rfc8018
import Verif.Built.Rfc5280
import Verif.Std.Rfc5280

/-! What rfc8018.py implements, where that is not the standard (generated by tools/builtgen.py). -/

namespace Verif
namespace Built
namespace Rfc8018

open Asn1 Verif.Std Spec.X680 Spec.Built

/-- `RC5-CBC-Parameters ::=`, changed or supplied -/
def RC5_CBC_Parameters : Ty :=
  SEQUENCE [
    mandatory "version" (constrained (VALUES [.int 16]) (named [("v1_0", 16)] INTEGER)),
    mandatory "rounds" (constrained (RANGE 8 127) INTEGER),
    mandatory "blockSizeInBits" (constrained (VALUES [.int 64, .int 128]) INTEGER),
    optional "iv" OCTET_STRING]

/-- `AES-IV ::=`, changed or supplied -/
def AES_IV : Ty :=
  constrained (SIZE 16 16) OCTET_STRING

/-- `DES-IV ::=`, changed or supplied -/
def DES_IV : Ty :=
  constrained (SIZE 8 8) OCTET_STRING

def description : Description :=
  ⟨Verif.Rfc8018.asModule,
   [⟨"rfc8018.AES_IV", Verif.Rfc8018.AES_IV, Built.Rfc8018.AES_IV⟩,
    ⟨"rfc8018.AlgorithmIdentifier", Verif.Rfc8018.AlgorithmIdentifier, Std.Rfc5280.AlgorithmIdentifier⟩,
    ⟨"rfc8018.PBEParameter", Verif.Rfc8018.PBEParameter, Std.Rfc8018.PBEParameter⟩,
    ⟨"rfc8018.PBES2_params", Verif.Rfc8018.PBES2_params, Std.Rfc8018.PBES2_params⟩,
    ⟨"rfc8018.PBMAC1_params", Verif.Rfc8018.PBMAC1_params, Std.Rfc8018.PBMAC1_params⟩,
    ⟨"rfc8018.PBKDF2_params", Verif.Rfc8018.PBKDF2_params, Std.Rfc8018.PBKDF2_params⟩,
    ⟨"rfc8018.RC2_CBC_Parameter", Verif.Rfc8018.RC2_CBC_Parameter, Std.Rfc8018.RC2_CBC_Parameter⟩,
    ⟨"rfc8018.RC5_CBC_Parameters", Verif.Rfc8018.RC5_CBC_Parameters, Built.Rfc8018.RC5_CBC_Parameters⟩,
    ⟨"rfc8018.DES_IV", Verif.Rfc8018.DES_IV, Built.Rfc8018.DES_IV⟩]⟩

end Rfc8018
end Built
end Verif
