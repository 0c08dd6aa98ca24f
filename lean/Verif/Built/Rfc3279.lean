import Verif.Spec.Built
import Verif.Std.Rfc3279

/-! What rfc3279.py implements, where that is not the standard (generated by tools/builtgen.py). -/

namespace Verif
namespace Built
namespace Rfc3279

open Asn1 Verif.Std Spec.X680 Spec.Built

def description : Description :=
  ⟨Verif.Rfc3279.asModule,
   [⟨"rfc3279.DSAPublicKey", Verif.Rfc3279.DSAPublicKey, Std.Rfc3279.DSAPublicKey⟩,
    ⟨"rfc3279.Dss_Parms", Verif.Rfc3279.Dss_Parms, Std.Rfc3279.Dss_Parms⟩,
    ⟨"rfc3279.Dss_Sig_Value", Verif.Rfc3279.Dss_Sig_Value, Std.Rfc3279.Dss_Sig_Value⟩,
    ⟨"rfc3279.RSAPublicKey", Verif.Rfc3279.RSAPublicKey, Std.Rfc3279.RSAPublicKey⟩,
    ⟨"rfc3279.DHPublicKey", Verif.Rfc3279.DHPublicKey, Std.Rfc3279.DHPublicKey⟩,
    ⟨"rfc3279.ValidationParms", Verif.Rfc3279.ValidationParms, Std.Rfc3279.ValidationParms⟩,
    ⟨"rfc3279.DomainParameters", Verif.Rfc3279.DomainParameters, Std.Rfc3279.DomainParameters⟩,
    ⟨"rfc3279.KEA_Parms_Id", Verif.Rfc3279.KEA_Parms_Id, Std.Rfc3279.KEA_Parms_Id⟩,
    ⟨"rfc3279.FieldID", Verif.Rfc3279.FieldID, Std.Rfc3279.FieldID⟩,
    ⟨"rfc3279.ECDSA_Sig_Value", Verif.Rfc3279.ECDSA_Sig_Value, Std.Rfc3279.ECDSA_Sig_Value⟩,
    ⟨"rfc3279.Prime_p", Verif.Rfc3279.Prime_p, Std.Rfc3279.Prime_p⟩,
    ⟨"rfc3279.Characteristic_two", Verif.Rfc3279.Characteristic_two, Std.Rfc3279.Characteristic_two⟩,
    ⟨"rfc3279.Trinomial", Verif.Rfc3279.Trinomial, Std.Rfc3279.Trinomial⟩,
    ⟨"rfc3279.Pentanomial", Verif.Rfc3279.Pentanomial, Std.Rfc3279.Pentanomial⟩,
    ⟨"rfc3279.FieldElement", Verif.Rfc3279.FieldElement, Std.Rfc3279.FieldElement⟩,
    ⟨"rfc3279.ECPoint", Verif.Rfc3279.ECPoint, Std.Rfc3279.ECPoint⟩,
    ⟨"rfc3279.Curve", Verif.Rfc3279.Curve, Std.Rfc3279.Curve⟩,
    ⟨"rfc3279.ECPVer", Verif.Rfc3279.ECPVer, Std.Rfc3279.ECPVer⟩,
    ⟨"rfc3279.ECParameters", Verif.Rfc3279.ECParameters, Std.Rfc3279.ECParameters⟩,
    ⟨"rfc3279.EcpkParameters", Verif.Rfc3279.EcpkParameters, Std.Rfc3279.EcpkParameters⟩]⟩

end Rfc3279
end Built
end Verif
