import Verif.Spec.Grade
import Verif.Gen.Rfc5940
import Verif.Std.Rfc5652
import Verif.Std.Rfc6960

/-! The ASN.1 of tools/std/rfc5940.asn1 (generated by tools/stdgen.py). -/

namespace Verif
namespace Std
namespace Rfc5940

open Asn1 Spec.X680

/-- `SCVPReqRes ::=` -/
def SCVPReqRes : Ty :=
  SEQUENCE [
    optional "request" (explicit .context 0 Std.Rfc5652.ContentInfo),
    mandatory "response" Std.Rfc5652.ContentInfo]

/-- Classes of rfc5940.py and the types of the standard they implement. -/
def entries : List Entry :=
  [⟨"rfc5940.OCSPResponse", Verif.Rfc5940.OCSPResponse, Std.Rfc6960.OCSPResponse, .same, true⟩,
   ⟨"rfc5940.ContentInfo", Verif.Rfc5940.ContentInfo, Std.Rfc5652.ContentInfo, .same, false⟩,
   ⟨"rfc5940.SCVPReqRes", Verif.Rfc5940.SCVPReqRes, SCVPReqRes, .same, false⟩]

/-- Classes of rfc5940.py the transcription of the standard has no type for. -/
def beyond : List String :=
  []

/-- Constants of rfc5940.py and the values the standard gives them. -/
def constants : List Constant :=
  [⟨"rfc5940.id_ri_ocsp_response", Verif.Rfc5940.id_ri_ocsp_response, OBJECT_IDENTIFIER, .oid [1, 3, 6, 1, 5, 5, 7, 16, 2], true⟩,
   ⟨"rfc5940.id_ri_scvp", Verif.Rfc5940.id_ri_scvp, OBJECT_IDENTIFIER, .oid [1, 3, 6, 1, 5, 5, 7, 16, 4], true⟩]

/-- Constants of rfc5940.py the transcription of the standard has no value for. -/
def others : List String :=
  []

def standard : Standard := ⟨Verif.Rfc5940.asModule, entries, beyond, constants, others⟩

end Rfc5940
end Std
end Verif
