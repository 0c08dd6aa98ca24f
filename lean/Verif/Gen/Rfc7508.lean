import Verif.Py.Obj
import Verif.Gen.Rfc5652

/-! Transcription of /repo/pyasn1_modules/rfc7508.py (generated by tools/gen.py). -/

namespace Verif
namespace Rfc7508

/-- rfc7508.py:26 -/
def MAX : Py.Bound :=
  .inf

/-- rfc7508.py:29-33 `class Algorithm(univ.Enumerated)` -/
def Algorithm : Py.Obj :=
  Py.univ.Enumerated.setNamedValues (Py.NamedValues [("canonAlgorithmSimple", 0), ("canonAlgorithmRelaxed", 1)])

/-- rfc7508.py:36-41 `class HeaderFieldStatus(univ.Integer)` -/
def HeaderFieldStatus : Py.Obj :=
  Py.univ.Integer.setNamedValues (Py.NamedValues [("duplicated", 0), ("deleted", 1), ("modified", 2)])

/-- rfc7508.py:44-48 `class HeaderFieldName(char.VisibleString)` -/
def HeaderFieldName : Py.Obj :=
  Py.char.VisibleString.setSubtypeSpec ((Py.PermittedAlphabetConstraint Py.string.printable).diff (Py.PermittedAlphabetConstraint (Py.chars ":")))

/-- rfc7508.py:51-52 `class HeaderFieldValue(char.UTF8String)` -/
def HeaderFieldValue : Py.Obj :=
  Py.char.UTF8String

/-- rfc7508.py:55-61 `class HeaderField(univ.Sequence)` -/
def HeaderField : Py.Obj :=
  Py.univ.Sequence.setComponentType (Py.NamedTypes [
    Py.NamedType "field-Name" Rfc7508.HeaderFieldName.call,
    Py.NamedType "field-Value" Rfc7508.HeaderFieldValue.call,
    Py.DefaultedNamedType "field-Status" (Rfc7508.HeaderFieldStatus.call.callStr "duplicated")])

/-- rfc7508.py:64-66 `class HeaderFields(univ.SequenceOf)` -/
def HeaderFields : Py.Obj :=
  (Py.univ.SequenceOf.setComponentTypeOf Rfc7508.HeaderField.call).setSubtypeSpec (Py.ValueSizeConstraint (.fin 1) Rfc7508.MAX)

/-- rfc7508.py:69-73 `class SecureHeaderFields(univ.Set)` -/
def SecureHeaderFields : Py.Obj :=
  Py.univ.Set.setComponentType (Py.NamedTypes [
    Py.NamedType "canonAlgorithm" Rfc7508.Algorithm.call,
    Py.NamedType "secHeaderFields" Rfc7508.HeaderFields.call])

/-- rfc7508.py:76 -/
def id_aa : Py.Obj :=
  (Py.univ.ObjectIdentifier.call.callArcs [1, 2, 840, 113549, 1, 9, 16, 2])

/-- rfc7508.py:78 -/
def id_aa_secureHeaderFieldsIdentifier : Py.Obj :=
  (Rfc7508.id_aa.addArcs [55])

/-- rfc7508.py:85-87 -/
def _cmsAttributesMapUpdate : Py.Entries :=
  [(Rfc7508.id_aa_secureHeaderFieldsIdentifier.value, Rfc7508.SecureHeaderFields.call.ty)]

/-- Modules of this package imported by rfc7508.py, in textual order. -/
def imports : List Py.Ident :=
  [(Py.mod 16 "rfc5652")]

/-- Dictionary operations executed when rfc7508.py is imported, in program order. -/
def effects : List Py.Effect :=
  [.create (Py.map 127 "rfc7508._cmsAttributesMapUpdate") Rfc7508._cmsAttributesMapUpdate /- rfc7508.py:85-87 -/,
   .update (Py.map 8 "rfc5652.cmsAttributesMap") Rfc7508._cmsAttributesMapUpdate /- rfc7508.py:89 -/]

/-- ASN.1 types rfc7508.py binds at module level (final version of each name), plus nested classes. -/
def classes : List (String × Py.Obj) :=
  [("rfc7508.Algorithm", Rfc7508.Algorithm),
   ("rfc7508.HeaderFieldStatus", Rfc7508.HeaderFieldStatus),
   ("rfc7508.HeaderFieldName", Rfc7508.HeaderFieldName),
   ("rfc7508.HeaderFieldValue", Rfc7508.HeaderFieldValue),
   ("rfc7508.HeaderField", Rfc7508.HeaderField),
   ("rfc7508.HeaderFields", Rfc7508.HeaderFields),
   ("rfc7508.SecureHeaderFields", Rfc7508.SecureHeaderFields)]

/-- pyasn1 instances rfc7508.py binds at module level. -/
def objects : List (String × Py.Obj) :=
  [("rfc7508.id_aa", Rfc7508.id_aa),
   ("rfc7508.id_aa_secureHeaderFieldsIdentifier", Rfc7508.id_aa_secureHeaderFieldsIdentifier)]

/-- pyasn1 instances rfc7508.py fills in by item assignment. -/
def protos : List (String × Py.Proto) :=
  []

/-- Every place of rfc7508.py that instantiates a class of the package: where, the class as it is
at that point, and the class as it is when the import has finished. -/
def snapshots : List Py.Snapshot :=
  [⟨"rfc7508.py:57", Rfc7508.HeaderFieldName, Rfc7508.HeaderFieldName⟩,
   ⟨"rfc7508.py:58", Rfc7508.HeaderFieldValue, Rfc7508.HeaderFieldValue⟩,
   ⟨"rfc7508.py:60", Rfc7508.HeaderFieldStatus, Rfc7508.HeaderFieldStatus⟩,
   ⟨"rfc7508.py:65", Rfc7508.HeaderField, Rfc7508.HeaderField⟩,
   ⟨"rfc7508.py:71", Rfc7508.Algorithm, Rfc7508.Algorithm⟩,
   ⟨"rfc7508.py:72", Rfc7508.HeaderFields, Rfc7508.HeaderFields⟩,
   ⟨"rfc7508.py:86", Rfc7508.SecureHeaderFields, Rfc7508.SecureHeaderFields⟩]

/-- Functions rfc7508.py defines. -/
def builders : List (String × (List Py.OidArg → Py.Obj)) :=
  []

def asModule : Py.Module :=
  { id := (Py.mod 103 "rfc7508"), imports := imports, effects := effects, classes := classes, objects := objects, protos := protos, snapshots := snapshots, builders := builders }

end Rfc7508
end Verif
