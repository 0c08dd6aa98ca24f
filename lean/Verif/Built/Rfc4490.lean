import Verif.Spec.Built
import Verif.Std.Rfc4490
import Verif.Built.Rfc4357
import Verif.Built.Rfc5280
import Verif.Std.Rfc4357
import Verif.Std.Rfc5280

/-! What rfc4490.py implements, where that is not the standard (generated by tools/builtgen.py). -/

namespace Verif
namespace Built
namespace Rfc4490

open Asn1 Verif.Std Spec.X680 Spec.Built

/-- `GostR3410-KeyTransport ::=` -/
def GostR3410_KeyTransport : Ty :=
  SEQUENCE [
    mandatory "sessionEncryptedKey" Built.Rfc4357.Gost28147_89_EncryptedKey,
    optional "transportParameters" (implicit .context 0 Std.Rfc4490.GostR3410_TransportParameters)]

/-- `GostR3410-94-PublicKeyParameters ::=`, changed or supplied -/
def GostR3410_94_PublicKeyParameters : Ty :=
  Built.Rfc4357.GostR3410_94_PublicKeyParameters

/-- `GostR3410-2001-PublicKeyParameters ::=`, changed or supplied -/
def GostR3410_2001_PublicKeyParameters : Ty :=
  Built.Rfc4357.GostR3410_2001_PublicKeyParameters

def description : Description :=
  ⟨Verif.Rfc4490.asModule,
   [⟨"rfc4490.Gost28147_89_ParamSet", Verif.Rfc4490.Gost28147_89_ParamSet, Std.Rfc4357.Gost28147_89_ParamSet⟩,
    ⟨"rfc4490.Gost28147_89_EncryptedKey", Verif.Rfc4490.Gost28147_89_EncryptedKey, Built.Rfc4357.Gost28147_89_EncryptedKey⟩,
    ⟨"rfc4490.GostR3410_94_PublicKeyParameters", Verif.Rfc4490.GostR3410_94_PublicKeyParameters, Built.Rfc4490.GostR3410_94_PublicKeyParameters⟩,
    ⟨"rfc4490.GostR3410_2001_PublicKeyParameters", Verif.Rfc4490.GostR3410_2001_PublicKeyParameters, Built.Rfc4490.GostR3410_2001_PublicKeyParameters⟩,
    ⟨"rfc4490.SubjectPublicKeyInfo", Verif.Rfc4490.SubjectPublicKeyInfo, Std.Rfc5280.SubjectPublicKeyInfo⟩,
    ⟨"rfc4490.Gost28147_89_KeyWrapParameters", Verif.Rfc4490.Gost28147_89_KeyWrapParameters, Std.Rfc4490.Gost28147_89_KeyWrapParameters⟩,
    ⟨"rfc4490.GostR3410_TransportParameters", Verif.Rfc4490.GostR3410_TransportParameters, Std.Rfc4490.GostR3410_TransportParameters⟩,
    ⟨"rfc4490.GostR3410_KeyTransport", Verif.Rfc4490.GostR3410_KeyTransport, Built.Rfc4490.GostR3410_KeyTransport⟩,
    ⟨"rfc4490.GostR3410_94_Signature", Verif.Rfc4490.GostR3410_94_Signature, Std.Rfc4490.GostR3410_94_Signature⟩,
    ⟨"rfc4490.GostR3410_2001_Signature", Verif.Rfc4490.GostR3410_2001_Signature, Std.Rfc4490.GostR3410_2001_Signature⟩]⟩

end Rfc4490
end Built
end Verif
