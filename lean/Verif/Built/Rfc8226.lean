import Verif.Spec.Built
import Verif.Std.Rfc8226

/-! What rfc8226.py implements, where that is not the standard (generated by tools/builtgen.py). -/

namespace Verif
namespace Built
namespace Rfc8226

open Asn1 Verif.Std Spec.X680 Spec.Built

def description : Description :=
  ⟨Verif.Rfc8226.asModule,
   [⟨"rfc8226.JWTClaimName", Verif.Rfc8226.JWTClaimName, Std.Rfc8226.JWTClaimName⟩,
    ⟨"rfc8226.JWTClaimNames", Verif.Rfc8226.JWTClaimNames, Std.Rfc8226.JWTClaimNames⟩,
    ⟨"rfc8226.JWTClaimPermittedValues", Verif.Rfc8226.JWTClaimPermittedValues, Std.Rfc8226.JWTClaimPermittedValues⟩,
    ⟨"rfc8226.JWTClaimPermittedValuesList", Verif.Rfc8226.JWTClaimPermittedValuesList, Std.Rfc8226.JWTClaimPermittedValuesList⟩,
    ⟨"rfc8226.JWTClaimConstraints", Verif.Rfc8226.JWTClaimConstraints, Std.Rfc8226.JWTClaimConstraints⟩,
    ⟨"rfc8226.ServiceProviderCode", Verif.Rfc8226.ServiceProviderCode, Std.Rfc8226.ServiceProviderCode⟩,
    ⟨"rfc8226.TelephoneNumber", Verif.Rfc8226.TelephoneNumber, Std.Rfc8226.TelephoneNumber⟩,
    ⟨"rfc8226.TelephoneNumberRange", Verif.Rfc8226.TelephoneNumberRange, Std.Rfc8226.TelephoneNumberRange⟩,
    ⟨"rfc8226.TNEntry", Verif.Rfc8226.TNEntry, Std.Rfc8226.TNEntry⟩,
    ⟨"rfc8226.TNAuthorizationList", Verif.Rfc8226.TNAuthorizationList, Std.Rfc8226.TNAuthorizationList⟩]⟩

end Rfc8226
end Built
end Verif
