import Verif.Py.Obj
import Verif.Gen.Rfc5280
import Verif.Gen.Rfc5652

/-! Transcription of /repo/pyasn1_modules/rfc8520.py (generated by tools/gen.py). -/

namespace Verif
namespace Rfc8520

/-- rfc8520.py:26 -/
def id_pe_mud_url : Py.Obj :=
  (Py.univ.ObjectIdentifier.call.callArcs [1, 3, 6, 1, 5, 5, 7, 1, 25])

/-- rfc8520.py:28-29 `class MUDURLSyntax(char.IA5String)` -/
def MUDURLSyntax : Py.Obj :=
  Py.char.IA5String

/-- rfc8520.py:34 -/
def id_pe_mudsigner : Py.Obj :=
  (Py.univ.ObjectIdentifier.call.callArcs [1, 3, 6, 1, 5, 5, 7, 1, 30])

/-- rfc8520.py:36-37 `class MUDsignerSyntax(rfc5280.Name)` -/
def MUDsignerSyntax : Py.Obj :=
  Rfc5280.Name

/-- rfc8520.py:42 -/
def id_ct_mudtype : Py.Obj :=
  (Py.univ.ObjectIdentifier.call.callArcs [1, 2, 840, 113549, 1, 9, 16, 1, 41])

/-- rfc8520.py:48-51 -/
def _certificateExtensionsMapUpdate : Py.Entries :=
  [(Rfc8520.id_pe_mud_url.value, Rfc8520.MUDURLSyntax.call.ty),
    (Rfc8520.id_pe_mudsigner.value, Rfc8520.MUDsignerSyntax.call.ty)]

/-- rfc8520.py:59-61 -/
def _cmsContentTypesMapUpdate : Py.Entries :=
  [(Rfc8520.id_ct_mudtype.value, Py.univ.OctetString.call.ty)]

/-- Modules of this package imported by rfc8520.py, in textual order. -/
def imports : List Py.Ident :=
  [(Py.mod 15 "rfc5280"), (Py.mod 16 "rfc5652")]

/-- Dictionary operations executed when rfc8520.py is imported, in program order. -/
def effects : List Py.Effect :=
  [.create (Py.map 142 "rfc8520._certificateExtensionsMapUpdate") Rfc8520._certificateExtensionsMapUpdate /- rfc8520.py:48-51 -/,
   .update (Py.map 48 "rfc5280.certificateExtensionsMap") Rfc8520._certificateExtensionsMapUpdate /- rfc8520.py:53 -/,
   .create (Py.map 143 "rfc8520._cmsContentTypesMapUpdate") Rfc8520._cmsContentTypesMapUpdate /- rfc8520.py:59-61 -/,
   .update (Py.map 13 "rfc5652.cmsContentTypesMap") Rfc8520._cmsContentTypesMapUpdate /- rfc8520.py:63 -/]

/-- ASN.1 types rfc8520.py binds at module level (final version of each name), plus nested classes. -/
def classes : List (String × Py.Obj) :=
  [("rfc8520.MUDURLSyntax", Rfc8520.MUDURLSyntax),
   ("rfc8520.MUDsignerSyntax", Rfc8520.MUDsignerSyntax)]

/-- pyasn1 instances rfc8520.py binds at module level. -/
def objects : List (String × Py.Obj) :=
  [("rfc8520.id_pe_mud_url", Rfc8520.id_pe_mud_url),
   ("rfc8520.id_pe_mudsigner", Rfc8520.id_pe_mudsigner),
   ("rfc8520.id_ct_mudtype", Rfc8520.id_ct_mudtype)]

/-- pyasn1 instances rfc8520.py fills in by item assignment. -/
def protos : List (String × Py.Proto) :=
  []

/-- Every place of rfc8520.py that instantiates a class of the package: where, the class as it is
at that point, and the class as it is when the import has finished. -/
def snapshots : List Py.Snapshot :=
  [⟨"rfc8520.py:49", Rfc8520.MUDURLSyntax, Rfc8520.MUDURLSyntax⟩,
   ⟨"rfc8520.py:50", Rfc8520.MUDsignerSyntax, Rfc8520.MUDsignerSyntax⟩]

/-- Functions rfc8520.py defines. -/
def builders : List (String × (List Py.OidArg → Py.Obj)) :=
  []

def asModule : Py.Module :=
  { id := (Py.mod 122 "rfc8520"), imports := imports, effects := effects, classes := classes, objects := objects, protos := protos, snapshots := snapshots, builders := builders }

end Rfc8520
end Verif
