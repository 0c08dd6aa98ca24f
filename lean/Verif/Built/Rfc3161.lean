import Verif.Spec.Built
import Verif.Std.Rfc3161
import Verif.Built.Rfc4210
import Verif.Built.Rfc5280
import Verif.Std.Rfc4210
import Verif.Std.Rfc5280
import Verif.Std.Rfc5652

/-! What rfc3161.py implements, where that is not the standard (generated by tools/builtgen.py). -/

namespace Verif
namespace Built
namespace Rfc3161

open Asn1 Verif.Std Spec.X680 Spec.Built

def description : Description :=
  ⟨Verif.Rfc3161.asModule,
   [⟨"rfc3161.Extensions", Verif.Rfc3161.Extensions, Std.Rfc5280.Extensions⟩,
    ⟨"rfc3161.AlgorithmIdentifier", Verif.Rfc3161.AlgorithmIdentifier, Std.Rfc5280.AlgorithmIdentifier⟩,
    ⟨"rfc3161.GeneralName", Verif.Rfc3161.GeneralName, Std.Rfc5280.GeneralName⟩,
    ⟨"rfc3161.ContentInfo", Verif.Rfc3161.ContentInfo, Std.Rfc5652.ContentInfo⟩,
    ⟨"rfc3161.PKIFreeText", Verif.Rfc3161.PKIFreeText, Std.Rfc4210.PKIFreeText⟩,
    ⟨"rfc3161.Accuracy", Verif.Rfc3161.Accuracy, Std.Rfc3161.Accuracy⟩,
    ⟨"rfc3161.MessageImprint", Verif.Rfc3161.MessageImprint, Std.Rfc3161.MessageImprint⟩,
    ⟨"rfc3161.PKIFailureInfo", Verif.Rfc3161.PKIFailureInfo, Std.Rfc3161.PKIFailureInfo⟩,
    ⟨"rfc3161.PKIStatus", Verif.Rfc3161.PKIStatus, Std.Rfc3161.PKIStatus⟩,
    ⟨"rfc3161.PKIStatusInfo", Verif.Rfc3161.PKIStatusInfo, Std.Rfc3161.PKIStatusInfo⟩,
    ⟨"rfc3161.TSAPolicyId", Verif.Rfc3161.TSAPolicyId, Std.Rfc3161.TSAPolicyId⟩,
    ⟨"rfc3161.TSTInfo", Verif.Rfc3161.TSTInfo, Std.Rfc3161.TSTInfo⟩,
    ⟨"rfc3161.TimeStampReq", Verif.Rfc3161.TimeStampReq, Std.Rfc3161.TimeStampReq⟩,
    ⟨"rfc3161.TimeStampToken", Verif.Rfc3161.TimeStampToken, Std.Rfc3161.TimeStampToken⟩,
    ⟨"rfc3161.TimeStampResp", Verif.Rfc3161.TimeStampResp, Std.Rfc3161.TimeStampResp⟩]⟩

end Rfc3161
end Built
end Verif
