import Verif.Py.Obj
import Verif.Gen.Rfc5652

/-! Transcription of /repo/pyasn1_modules/rfc8358.py (generated by tools/gen.py). -/

namespace Verif
namespace Rfc8358

/-- rfc8358.py:20 -/
def id_ct : Py.Obj :=
  (Py.univ.ObjectIdentifier.call.callArcs [1, 2, 840, 113549, 1, 9, 16, 1])

/-- rfc8358.py:22 -/
def id_ct_asciiTextWithCRLF : Py.Obj :=
  (Rfc8358.id_ct.addArcs [27])

/-- rfc8358.py:24 -/
def id_ct_epub : Py.Obj :=
  (Rfc8358.id_ct.addArcs [39])

/-- rfc8358.py:26 -/
def id_ct_htmlWithCRLF : Py.Obj :=
  (Rfc8358.id_ct.addArcs [38])

/-- rfc8358.py:28 -/
def id_ct_pdf : Py.Obj :=
  (Rfc8358.id_ct.addArcs [29])

/-- rfc8358.py:30 -/
def id_ct_postscript : Py.Obj :=
  (Rfc8358.id_ct.addArcs [30])

/-- rfc8358.py:32 -/
def id_ct_utf8TextWithCRLF : Py.Obj :=
  (Rfc8358.id_ct.addArcs [37])

/-- rfc8358.py:34 -/
def id_ct_xml : Py.Obj :=
  (Rfc8358.id_ct.addArcs [28])

/-- rfc8358.py:40-48 -/
def _cmsContentTypesMapUpdate : Py.Entries :=
  [(Rfc8358.id_ct_asciiTextWithCRLF.value, Py.univ.OctetString.call.ty),
    (Rfc8358.id_ct_epub.value, Py.univ.OctetString.call.ty),
    (Rfc8358.id_ct_htmlWithCRLF.value, Py.univ.OctetString.call.ty),
    (Rfc8358.id_ct_pdf.value, Py.univ.OctetString.call.ty),
    (Rfc8358.id_ct_postscript.value, Py.univ.OctetString.call.ty),
    (Rfc8358.id_ct_utf8TextWithCRLF.value, Py.univ.OctetString.call.ty),
    (Rfc8358.id_ct_xml.value, Py.univ.OctetString.call.ty)]

/-- Modules of this package imported by rfc8358.py, in textual order. -/
def imports : List Py.Ident :=
  [(Py.mod 16 "rfc5652")]

/-- Dictionary operations executed when rfc8358.py is imported, in program order. -/
def effects : List Py.Effect :=
  [.create (Py.map 137 "rfc8358._cmsContentTypesMapUpdate") Rfc8358._cmsContentTypesMapUpdate /- rfc8358.py:40-48 -/,
   .update (Py.map 13 "rfc5652.cmsContentTypesMap") Rfc8358._cmsContentTypesMapUpdate /- rfc8358.py:50 -/]

/-- ASN.1 types rfc8358.py binds at module level (final version of each name), plus nested classes. -/
def classes : List (String × Py.Obj) :=
  []

/-- pyasn1 instances rfc8358.py binds at module level. -/
def objects : List (String × Py.Obj) :=
  [("rfc8358.id_ct", Rfc8358.id_ct),
   ("rfc8358.id_ct_asciiTextWithCRLF", Rfc8358.id_ct_asciiTextWithCRLF),
   ("rfc8358.id_ct_epub", Rfc8358.id_ct_epub),
   ("rfc8358.id_ct_htmlWithCRLF", Rfc8358.id_ct_htmlWithCRLF),
   ("rfc8358.id_ct_pdf", Rfc8358.id_ct_pdf),
   ("rfc8358.id_ct_postscript", Rfc8358.id_ct_postscript),
   ("rfc8358.id_ct_utf8TextWithCRLF", Rfc8358.id_ct_utf8TextWithCRLF),
   ("rfc8358.id_ct_xml", Rfc8358.id_ct_xml)]

/-- pyasn1 instances rfc8358.py fills in by item assignment. -/
def protos : List (String × Py.Proto) :=
  []

/-- Every place of rfc8358.py that instantiates a class of the package: where, the class as it is
at that point, and the class as it is when the import has finished. -/
def snapshots : List Py.Snapshot :=
  []

/-- Functions rfc8358.py defines. -/
def builders : List (String × (List Py.OidArg → Py.Obj)) :=
  []

def asModule : Py.Module :=
  { id := (Py.mod 114 "rfc8358"), imports := imports, effects := effects, classes := classes, objects := objects, protos := protos, snapshots := snapshots, builders := builders }

end Rfc8358
end Verif
