import Verif.Spec.Built
import Verif.Std.Rfc4491
import Verif.Built.Rfc4357
import Verif.Std.Rfc4357

/-! What rfc4491.py implements, where that is not the standard (generated by tools/builtgen.py). -/

namespace Verif
namespace Built
namespace Rfc4491

open Asn1 Verif.Std Spec.X680 Spec.Built

/-- `GostR3410-2001-PublicKey ::=`, changed or supplied -/
def GostR3410_2001_PublicKey : Ty :=
  Built.Rfc4357.GostR3410_2001_PublicKey

/-- `GostR3410-2001-PublicKeyParameters ::=`, changed or supplied -/
def GostR3410_2001_PublicKeyParameters : Ty :=
  Built.Rfc4357.GostR3410_2001_PublicKeyParameters

/-- `GostR3410-94-PublicKey ::=`, changed or supplied -/
def GostR3410_94_PublicKey : Ty :=
  Built.Rfc4357.GostR3410_94_PublicKey

/-- `GostR3410-94-PublicKeyParameters ::=`, changed or supplied -/
def GostR3410_94_PublicKeyParameters : Ty :=
  Built.Rfc4357.GostR3410_94_PublicKeyParameters

def description : Description :=
  ⟨Verif.Rfc4491.asModule,
   [⟨"rfc4491.GostR3410_2001_PublicKey", Verif.Rfc4491.GostR3410_2001_PublicKey, Built.Rfc4491.GostR3410_2001_PublicKey⟩,
    ⟨"rfc4491.GostR3410_2001_PublicKeyParameters", Verif.Rfc4491.GostR3410_2001_PublicKeyParameters, Built.Rfc4491.GostR3410_2001_PublicKeyParameters⟩,
    ⟨"rfc4491.GostR3410_94_PublicKey", Verif.Rfc4491.GostR3410_94_PublicKey, Built.Rfc4491.GostR3410_94_PublicKey⟩,
    ⟨"rfc4491.GostR3410_94_PublicKeyParameters", Verif.Rfc4491.GostR3410_94_PublicKeyParameters, Built.Rfc4491.GostR3410_94_PublicKeyParameters⟩]⟩

end Rfc4491
end Built
end Verif
