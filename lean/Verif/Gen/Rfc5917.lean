import Verif.Py.Obj
import Verif.Gen.Rfc5280

/-! Transcription of /repo/pyasn1_modules/rfc5917.py (generated by tools/gen.py). -/

namespace Verif
namespace Rfc5917

/-- rfc5917.py:30-34 `class DirectoryString(univ.Choice)` -/
def DirectoryString : Py.Obj :=
  Py.univ.Choice.setComponentType (Py.NamedTypes [
    Py.NamedType "utf8String" (Py.char.UTF8String.call.addSubtypeSpec (Py.ValueSizeConstraint (.fin 1) (.fin 64)))])

/-- rfc5917.py:39 -/
def id_clearanceSponsor : Py.Obj :=
  (Py.univ.ObjectIdentifier.call.callArcs [2, 16, 840, 1, 101, 2, 1, 5, 68])

/-- rfc5917.py:41 -/
def ub_clearance_sponsor : Py.Obj :=
  (Py.univ.Integer.call.callInt 64)

/-- rfc5917.py:44 -/
def at_clearanceSponsor__0 : Py.Proto :=
  { obj := Rfc5280.Attribute.call }

/-- rfc5917.py:45 `at_clearanceSponsor['type'] = ...` -/
def at_clearanceSponsor__1 : Py.Proto :=
  Rfc5917.at_clearanceSponsor__0.set "type" (.obj Rfc5917.id_clearanceSponsor)

/-- rfc5917.py:46 `at_clearanceSponsor['values'][0] = ...` -/
def at_clearanceSponsor : Py.Proto :=
  Rfc5917.at_clearanceSponsor__1.set "values" (.elem0 Rfc5917.DirectoryString.call)

/-- rfc5917.py:51-53 -/
def _certificateAttributesMapUpdate : Py.Entries :=
  [(Rfc5917.id_clearanceSponsor.value, Rfc5917.DirectoryString.call.ty)]

/-- Modules of this package imported by rfc5917.py, in textual order. -/
def imports : List Py.Ident :=
  [(Py.mod 15 "rfc5280")]

/-- Dictionary operations executed when rfc5917.py is imported, in program order. -/
def effects : List Py.Effect :=
  [.create (Py.map 95 "rfc5917._certificateAttributesMapUpdate") Rfc5917._certificateAttributesMapUpdate /- rfc5917.py:51-53 -/,
   .update (Py.map 4 "rfc5280.certificateAttributesMap") Rfc5917._certificateAttributesMapUpdate /- rfc5917.py:55 -/]

/-- ASN.1 types rfc5917.py binds at module level (final version of each name), plus nested classes. -/
def classes : List (String × Py.Obj) :=
  [("rfc5917.DirectoryString", Rfc5917.DirectoryString)]

/-- pyasn1 instances rfc5917.py binds at module level. -/
def objects : List (String × Py.Obj) :=
  [("rfc5917.id_clearanceSponsor", Rfc5917.id_clearanceSponsor),
   ("rfc5917.ub_clearance_sponsor", Rfc5917.ub_clearance_sponsor)]

/-- pyasn1 instances rfc5917.py fills in by item assignment. -/
def protos : List (String × Py.Proto) :=
  [("rfc5917.at_clearanceSponsor", Rfc5917.at_clearanceSponsor)]

/-- Every place of rfc5917.py that instantiates a class of the package: where, the class as it is
at that point, and the class as it is when the import has finished. -/
def snapshots : List Py.Snapshot :=
  [⟨"rfc5917.py:44", Rfc5280.Attribute, Rfc5280.Attribute⟩,
   ⟨"rfc5917.py:46", Rfc5917.DirectoryString, Rfc5917.DirectoryString⟩,
   ⟨"rfc5917.py:52", Rfc5917.DirectoryString, Rfc5917.DirectoryString⟩]

/-- Functions rfc5917.py defines. -/
def builders : List (String × (List Py.OidArg → Py.Obj)) :=
  []

def asModule : Py.Module :=
  { id := (Py.mod 81 "rfc5917"), imports := imports, effects := effects, classes := classes, objects := objects, protos := protos, snapshots := snapshots, builders := builders }

end Rfc5917
end Verif
