import Verif.Spec.Built
import Verif.Std.Rfc6955
import Verif.Std.Rfc3279
import Verif.Std.Rfc5652

/-! What rfc6955.py implements, where that is not the standard (generated by tools/builtgen.py). -/

namespace Verif
namespace Built
namespace Rfc6955

open Asn1 Verif.Std Spec.X680 Spec.Built

def description : Description :=
  ⟨Verif.Rfc6955.asModule,
   [⟨"rfc6955.MessageDigest", Verif.Rfc6955.MessageDigest, Std.Rfc6955.MessageDigest⟩,
    ⟨"rfc6955.IssuerAndSerialNumber", Verif.Rfc6955.IssuerAndSerialNumber, Std.Rfc5652.IssuerAndSerialNumber⟩,
    ⟨"rfc6955.Dss_Sig_Value", Verif.Rfc6955.Dss_Sig_Value, Std.Rfc3279.Dss_Sig_Value⟩,
    ⟨"rfc6955.DomainParameters", Verif.Rfc6955.DomainParameters, Std.Rfc3279.DomainParameters⟩,
    ⟨"rfc6955.DhSigStatic", Verif.Rfc6955.DhSigStatic, Std.Rfc6955.DhSigStatic⟩]⟩

end Rfc6955
end Built
end Verif
