import Verif.Spec.Built
import Verif.Std.Rfc5940
import Verif.Built.Rfc6960
import Verif.Std.Rfc5652
import Verif.Std.Rfc6960

/-! What rfc5940.py implements, where that is not the standard (generated by tools/builtgen.py). -/

namespace Verif
namespace Built
namespace Rfc5940

open Asn1 Verif.Std Spec.X680 Spec.Built

def description : Description :=
  ⟨Verif.Rfc5940.asModule,
   [⟨"rfc5940.OCSPResponse", Verif.Rfc5940.OCSPResponse, Built.Rfc6960.OCSPResponse⟩,
    ⟨"rfc5940.ContentInfo", Verif.Rfc5940.ContentInfo, Std.Rfc5652.ContentInfo⟩,
    ⟨"rfc5940.SCVPReqRes", Verif.Rfc5940.SCVPReqRes, Std.Rfc5940.SCVPReqRes⟩]⟩

end Rfc5940
end Built
end Verif
