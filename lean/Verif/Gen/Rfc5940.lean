import Verif.Py.Obj
import Verif.Gen.Rfc2560
import Verif.Gen.Rfc5652

/-! Transcription of /repo/pyasn1_modules/rfc5940.py (generated by tools/gen.py). -/

namespace Verif
namespace Rfc5940

/-- rfc5940.py:28 -/
def id_ri_ocsp_response : Py.Obj :=
  (Py.univ.ObjectIdentifier.call.callArcs [1, 3, 6, 1, 5, 5, 7, 16, 2])

/-- rfc5940.py:30 alias of `rfc2560.OCSPResponse` -/
def OCSPResponse : Py.Obj :=
  Rfc2560.OCSPResponse

/-- rfc5940.py:37 -/
def id_ri_scvp : Py.Obj :=
  (Py.univ.ObjectIdentifier.call.callArcs [1, 3, 6, 1, 5, 5, 7, 16, 4])

/-- rfc5940.py:39 alias of `rfc5652.ContentInfo` -/
def ContentInfo : Py.Obj :=
  Rfc5652.ContentInfo

/-- rfc5940.py:41-42 `class SCVPReqRes(univ.Sequence)` -/
def SCVPReqRes__0 : Py.Obj :=
  Py.univ.Sequence

/-- rfc5940.py:44-48 `SCVPReqRes.componentType = ...` -/
def SCVPReqRes : Py.Obj :=
  Rfc5940.SCVPReqRes__0.setComponentType (Py.NamedTypes [
    Py.OptionalNamedType "request" (Rfc5940.ContentInfo.call.explicitTag (Py.Tag .context false 0)),
    Py.NamedType "response" Rfc5940.ContentInfo.call])

/-- rfc5940.py:54-57 -/
def _otherRevInfoFormatMapUpdate : Py.Entries :=
  [(Rfc5940.id_ri_ocsp_response.value, Rfc5940.OCSPResponse.call.ty),
    (Rfc5940.id_ri_scvp.value, Rfc5940.SCVPReqRes.call.ty)]

/-- Modules of this package imported by rfc5940.py, in textual order. -/
def imports : List Py.Ident :=
  [(Py.mod 11 "rfc2560"), (Py.mod 16 "rfc5652")]

/-- Dictionary operations executed when rfc5940.py is imported, in program order. -/
def effects : List Py.Effect :=
  [.create (Py.map 99 "rfc5940._otherRevInfoFormatMapUpdate") Rfc5940._otherRevInfoFormatMapUpdate /- rfc5940.py:54-57 -/,
   .update (Py.map 11 "rfc5652.otherRevInfoFormatMap") Rfc5940._otherRevInfoFormatMapUpdate /- rfc5940.py:59 -/]

/-- ASN.1 types rfc5940.py binds at module level (final version of each name), plus nested classes. -/
def classes : List (String × Py.Obj) :=
  [("rfc5940.OCSPResponse", Rfc5940.OCSPResponse),
   ("rfc5940.ContentInfo", Rfc5940.ContentInfo),
   ("rfc5940.SCVPReqRes", Rfc5940.SCVPReqRes)]

/-- pyasn1 instances rfc5940.py binds at module level. -/
def objects : List (String × Py.Obj) :=
  [("rfc5940.id_ri_ocsp_response", Rfc5940.id_ri_ocsp_response),
   ("rfc5940.id_ri_scvp", Rfc5940.id_ri_scvp)]

/-- pyasn1 instances rfc5940.py fills in by item assignment. -/
def protos : List (String × Py.Proto) :=
  []

/-- Every place of rfc5940.py that instantiates a class of the package: where, the class as it is
at that point, and the class as it is when the import has finished. -/
def snapshots : List Py.Snapshot :=
  [⟨"rfc5940.py:46", Rfc5940.ContentInfo, Rfc5940.ContentInfo⟩,
   ⟨"rfc5940.py:47", Rfc5940.ContentInfo, Rfc5940.ContentInfo⟩,
   ⟨"rfc5940.py:55", Rfc5940.OCSPResponse, Rfc5940.OCSPResponse⟩,
   ⟨"rfc5940.py:56", Rfc5940.SCVPReqRes, Rfc5940.SCVPReqRes⟩]

/-- Functions rfc5940.py defines. -/
def builders : List (String × (List Py.OidArg → Py.Obj)) :=
  []

def asModule : Py.Module :=
  { id := (Py.mod 84 "rfc5940"), imports := imports, effects := effects, classes := classes, objects := objects, protos := protos, snapshots := snapshots, builders := builders }

end Rfc5940
end Verif
