import Verif.Py.Obj
import Verif.Gen.Rfc5652

/-! Transcription of /repo/pyasn1_modules/rfc4073.py (generated by tools/gen.py). -/

namespace Verif
namespace Rfc4073

/-- rfc4073.py:22 -/
def MAX : Py.Bound :=
  .inf

/-- rfc4073.py:27 -/
def id_ct_contentCollection : Py.Obj :=
  (Py.univ.ObjectIdentifier.call.callArcs [1, 2, 840, 113549, 1, 9, 16, 1, 19])

/-- rfc4073.py:29-30 `class ContentCollection(univ.SequenceOf)` -/
def ContentCollection__0 : Py.Obj :=
  Py.univ.SequenceOf

/-- rfc4073.py:32 `ContentCollection.componentType = ...` -/
def ContentCollection__1 : Py.Obj :=
  Rfc4073.ContentCollection__0.setComponentTypeOf Rfc5652.ContentInfo.call

/-- rfc4073.py:33 `ContentCollection.sizeSpec = ...` -/
def ContentCollection : Py.Obj :=
  Rfc4073.ContentCollection__1.setSizeSpec (Py.ValueSizeConstraint (.fin 1) Rfc4073.MAX)

/-- rfc4073.py:38 -/
def id_ct_contentWithAttrs : Py.Obj :=
  (Py.univ.ObjectIdentifier.call.callArcs [1, 2, 840, 113549, 1, 9, 16, 1, 20])

/-- rfc4073.py:40-41 `class ContentWithAttributes(univ.Sequence)` -/
def ContentWithAttributes__0 : Py.Obj :=
  Py.univ.Sequence

/-- rfc4073.py:43-48 `ContentWithAttributes.componentType = ...` -/
def ContentWithAttributes : Py.Obj :=
  Rfc4073.ContentWithAttributes__0.setComponentType (Py.NamedTypes [
    Py.NamedType "content" Rfc5652.ContentInfo.call,
    Py.NamedType "attrs" ((Py.univ.SequenceOf.call.setComponentTypeOf Rfc5652.Attribute.call).addSizeSpec (Py.ValueSizeConstraint (.fin 1) Rfc4073.MAX))])

/-- rfc4073.py:54-57 -/
def _cmsContentTypesMapUpdate : Py.Entries :=
  [(Rfc4073.id_ct_contentCollection.value, Rfc4073.ContentCollection.call.ty),
    (Rfc4073.id_ct_contentWithAttrs.value, Rfc4073.ContentWithAttributes.call.ty)]

/-- Modules of this package imported by rfc4073.py, in textual order. -/
def imports : List Py.Ident :=
  [(Py.mod 16 "rfc5652")]

/-- Dictionary operations executed when rfc4073.py is imported, in program order. -/
def effects : List Py.Effect :=
  [.create (Py.map 59 "rfc4073._cmsContentTypesMapUpdate") Rfc4073._cmsContentTypesMapUpdate /- rfc4073.py:54-57 -/,
   .update (Py.map 13 "rfc5652.cmsContentTypesMap") Rfc4073._cmsContentTypesMapUpdate /- rfc4073.py:59 -/]

/-- ASN.1 types rfc4073.py binds at module level (final version of each name), plus nested classes. -/
def classes : List (String × Py.Obj) :=
  [("rfc4073.ContentCollection", Rfc4073.ContentCollection),
   ("rfc4073.ContentWithAttributes", Rfc4073.ContentWithAttributes)]

/-- pyasn1 instances rfc4073.py binds at module level. -/
def objects : List (String × Py.Obj) :=
  [("rfc4073.id_ct_contentCollection", Rfc4073.id_ct_contentCollection),
   ("rfc4073.id_ct_contentWithAttrs", Rfc4073.id_ct_contentWithAttrs)]

/-- pyasn1 instances rfc4073.py fills in by item assignment. -/
def protos : List (String × Py.Proto) :=
  []

/-- Every place of rfc4073.py that instantiates a class of the package: where, the class as it is
at that point, and the class as it is when the import has finished. -/
def snapshots : List Py.Snapshot :=
  [⟨"rfc4073.py:32", Rfc5652.ContentInfo, Rfc5652.ContentInfo⟩,
   ⟨"rfc4073.py:44", Rfc5652.ContentInfo, Rfc5652.ContentInfo⟩,
   ⟨"rfc4073.py:46", Rfc5652.Attribute, Rfc5652.Attribute⟩,
   ⟨"rfc4073.py:55", Rfc4073.ContentCollection, Rfc4073.ContentCollection⟩,
   ⟨"rfc4073.py:56", Rfc4073.ContentWithAttributes, Rfc4073.ContentWithAttributes⟩]

/-- Functions rfc4073.py defines. -/
def builders : List (String × (List Py.OidArg → Py.Obj)) :=
  []

def asModule : Py.Module :=
  { id := (Py.mod 54 "rfc4073"), imports := imports, effects := effects, classes := classes, objects := objects, protos := protos, snapshots := snapshots, builders := builders }

end Rfc4073
end Verif
