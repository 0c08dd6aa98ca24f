import Verif.Py.Obj
import Verif.Gen.Rfc5280

/-! Transcription of /repo/pyasn1_modules/rfc6010.py (generated by tools/gen.py). -/

namespace Verif
namespace Rfc6010

/-- rfc6010.py:23 -/
def MAX : Py.Bound :=
  .inf

/-- rfc6010.py:26 alias of `rfc5280.AttributeType` -/
def AttributeType : Py.Obj :=
  Rfc5280.AttributeType

/-- rfc6010.py:28 alias of `rfc5280.AttributeValue` -/
def AttributeValue : Py.Obj :=
  Rfc5280.AttributeValue

/-- rfc6010.py:31 -/
def id_ct_anyContentType : Py.Obj :=
  (Py.univ.ObjectIdentifier.call.callArcs [1, 2, 840, 113549, 1, 9, 16, 1, 0])

/-- rfc6010.py:34-35 `class AttrConstraint(univ.Sequence)` -/
def AttrConstraint__0 : Py.Obj :=
  Py.univ.Sequence

/-- rfc6010.py:37-41 `AttrConstraint.componentType = ...` -/
def AttrConstraint : Py.Obj :=
  Rfc6010.AttrConstraint__0.setComponentType (Py.NamedTypes [
    Py.NamedType "attrType" Rfc6010.AttributeType.call,
    Py.NamedType "attrValues" ((Py.univ.SetOf.call.setComponentTypeOf Rfc6010.AttributeValue.call).addSubtypeSpec (Py.ValueSizeConstraint (.fin 1) Rfc6010.MAX))])

/-- rfc6010.py:44-45 `class AttrConstraintList(univ.SequenceOf)` -/
def AttrConstraintList__0 : Py.Obj :=
  Py.univ.SequenceOf

/-- rfc6010.py:47 `AttrConstraintList.componentType = ...` -/
def AttrConstraintList__1 : Py.Obj :=
  Rfc6010.AttrConstraintList__0.setComponentTypeOf Rfc6010.AttrConstraint.call

/-- rfc6010.py:48 `AttrConstraintList.subtypeSpec = ...` -/
def AttrConstraintList : Py.Obj :=
  Rfc6010.AttrConstraintList__1.setSubtypeSpec (Py.ValueSizeConstraint (.fin 1) Rfc6010.MAX)

/-- rfc6010.py:51-52 `class ContentTypeGeneration(univ.Enumerated)` -/
def ContentTypeGeneration__0 : Py.Obj :=
  Py.univ.Enumerated

/-- rfc6010.py:54-57 `ContentTypeGeneration.namedValues = ...` -/
def ContentTypeGeneration : Py.Obj :=
  Rfc6010.ContentTypeGeneration__0.setNamedValues (Py.NamedValues [("canSource", 0), ("cannotSource", 1)])

/-- rfc6010.py:60-61 `class ContentTypeConstraint(univ.Sequence)` -/
def ContentTypeConstraint__0 : Py.Obj :=
  Py.univ.Sequence

/-- rfc6010.py:63-67 `ContentTypeConstraint.componentType = ...` -/
def ContentTypeConstraint : Py.Obj :=
  Rfc6010.ContentTypeConstraint__0.setComponentType (Py.NamedTypes [
    Py.NamedType "contentType" Py.univ.ObjectIdentifier.call,
    Py.DefaultedNamedType "canSource" (Rfc6010.ContentTypeGeneration.call.callStr "canSource"),
    Py.OptionalNamedType "attrConstraints" Rfc6010.AttrConstraintList.call])

/-- rfc6010.py:72 -/
def id_pe_cmsContentConstraints : Py.Obj :=
  (Py.univ.ObjectIdentifier.call.callArcs [1, 3, 6, 1, 5, 5, 7, 1, 18])

/-- rfc6010.py:74-75 `class CMSContentConstraints(univ.SequenceOf)` -/
def CMSContentConstraints__0 : Py.Obj :=
  Py.univ.SequenceOf

/-- rfc6010.py:77 `CMSContentConstraints.componentType = ...` -/
def CMSContentConstraints__1 : Py.Obj :=
  Rfc6010.CMSContentConstraints__0.setComponentTypeOf Rfc6010.ContentTypeConstraint.call

/-- rfc6010.py:78 `CMSContentConstraints.subtypeSpec = ...` -/
def CMSContentConstraints : Py.Obj :=
  Rfc6010.CMSContentConstraints__1.setSubtypeSpec (Py.ValueSizeConstraint (.fin 1) Rfc6010.MAX)

/-- rfc6010.py:84-86 -/
def _certificateExtensionsMap : Py.Entries :=
  [(Rfc6010.id_pe_cmsContentConstraints.value, Rfc6010.CMSContentConstraints.call.ty)]

/-- Modules of this package imported by rfc6010.py, in textual order. -/
def imports : List Py.Ident :=
  [(Py.mod 15 "rfc5280")]

/-- Dictionary operations executed when rfc6010.py is imported, in program order. -/
def effects : List Py.Effect :=
  [.create (Py.map 102 "rfc6010._certificateExtensionsMap") Rfc6010._certificateExtensionsMap /- rfc6010.py:84-86 -/,
   .update (Py.map 48 "rfc5280.certificateExtensionsMap") Rfc6010._certificateExtensionsMap /- rfc6010.py:88 -/]

/-- ASN.1 types rfc6010.py binds at module level (final version of each name), plus nested classes. -/
def classes : List (String × Py.Obj) :=
  [("rfc6010.AttributeType", Rfc6010.AttributeType),
   ("rfc6010.AttributeValue", Rfc6010.AttributeValue),
   ("rfc6010.AttrConstraint", Rfc6010.AttrConstraint),
   ("rfc6010.AttrConstraintList", Rfc6010.AttrConstraintList),
   ("rfc6010.ContentTypeGeneration", Rfc6010.ContentTypeGeneration),
   ("rfc6010.ContentTypeConstraint", Rfc6010.ContentTypeConstraint),
   ("rfc6010.CMSContentConstraints", Rfc6010.CMSContentConstraints)]

/-- pyasn1 instances rfc6010.py binds at module level. -/
def objects : List (String × Py.Obj) :=
  [("rfc6010.id_ct_anyContentType", Rfc6010.id_ct_anyContentType),
   ("rfc6010.id_pe_cmsContentConstraints", Rfc6010.id_pe_cmsContentConstraints)]

/-- pyasn1 instances rfc6010.py fills in by item assignment. -/
def protos : List (String × Py.Proto) :=
  []

/-- Every place of rfc6010.py that instantiates a class of the package: where, the class as it is
at that point, and the class as it is when the import has finished. -/
def snapshots : List Py.Snapshot :=
  [⟨"rfc6010.py:38", Rfc6010.AttributeType, Rfc6010.AttributeType⟩,
   ⟨"rfc6010.py:40", Rfc6010.AttributeValue, Rfc6010.AttributeValue⟩,
   ⟨"rfc6010.py:47", Rfc6010.AttrConstraint, Rfc6010.AttrConstraint⟩,
   ⟨"rfc6010.py:65", Rfc6010.ContentTypeGeneration, Rfc6010.ContentTypeGeneration⟩,
   ⟨"rfc6010.py:66", Rfc6010.AttrConstraintList, Rfc6010.AttrConstraintList⟩,
   ⟨"rfc6010.py:77", Rfc6010.ContentTypeConstraint, Rfc6010.ContentTypeConstraint⟩,
   ⟨"rfc6010.py:85", Rfc6010.CMSContentConstraints, Rfc6010.CMSContentConstraints⟩]

/-- Functions rfc6010.py defines. -/
def builders : List (String × (List Py.OidArg → Py.Obj)) :=
  []

def asModule : Py.Module :=
  { id := (Py.mod 85 "rfc6010"), imports := imports, effects := effects, classes := classes, objects := objects, protos := protos, snapshots := snapshots, builders := builders }

end Rfc6010
end Verif
