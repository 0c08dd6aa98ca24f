import Verif.Spec.Built
import Verif.Std.Rfc6482

/-! What rfc6482.py implements, where that is not the standard (generated by tools/builtgen.py). -/

namespace Verif
namespace Built
namespace Rfc6482

open Asn1 Verif.Std Spec.X680 Spec.Built

def description : Description :=
  ⟨Verif.Rfc6482.asModule,
   [⟨"rfc6482.ASID", Verif.Rfc6482.ASID, Std.Rfc6482.ASID⟩,
    ⟨"rfc6482.IPAddress", Verif.Rfc6482.IPAddress, Std.Rfc6482.IPAddress⟩,
    ⟨"rfc6482.ROAIPAddress", Verif.Rfc6482.ROAIPAddress, Std.Rfc6482.ROAIPAddress⟩,
    ⟨"rfc6482.ROAIPAddressFamily", Verif.Rfc6482.ROAIPAddressFamily, Std.Rfc6482.ROAIPAddressFamily⟩,
    ⟨"rfc6482.RouteOriginAttestation", Verif.Rfc6482.RouteOriginAttestation, Std.Rfc6482.RouteOriginAttestation⟩]⟩

end Rfc6482
end Built
end Verif
