import Verif.Py.Obj

/-! Transcription of /repo/pyasn1_modules/rfc2631.py (generated by tools/gen.py). -/

namespace Verif
namespace Rfc2631

/-- rfc2631.py:22-27 `class KeySpecificInfo(univ.Sequence)` -/
def KeySpecificInfo : Py.Obj :=
  Py.univ.Sequence.setComponentType (Py.NamedTypes [
    Py.NamedType "algorithm" Py.univ.ObjectIdentifier.call,
    Py.NamedType "counter" (Py.univ.OctetString.call.addSubtypeSpec (Py.ValueSizeConstraint (.fin 4) (.fin 4)))])

/-- rfc2631.py:30-37 `class OtherInfo(univ.Sequence)` -/
def OtherInfo : Py.Obj :=
  Py.univ.Sequence.setComponentType (Py.NamedTypes [
    Py.NamedType "keyInfo" Rfc2631.KeySpecificInfo.call,
    Py.OptionalNamedType "partyAInfo" (Py.univ.OctetString.call.explicitTag (Py.Tag .context false 0)),
    Py.NamedType "suppPubInfo" (Py.univ.OctetString.call.explicitTag (Py.Tag .context false 2))])

/-- Modules of this package imported by rfc2631.py, in textual order. -/
def imports : List Py.Ident :=
  []

/-- Dictionary operations executed when rfc2631.py is imported, in program order. -/
def effects : List Py.Effect :=
  []

/-- ASN.1 types rfc2631.py binds at module level (final version of each name), plus nested classes. -/
def classes : List (String × Py.Obj) :=
  [("rfc2631.KeySpecificInfo", Rfc2631.KeySpecificInfo),
   ("rfc2631.OtherInfo", Rfc2631.OtherInfo)]

/-- pyasn1 instances rfc2631.py binds at module level. -/
def objects : List (String × Py.Obj) :=
  []

/-- pyasn1 instances rfc2631.py fills in by item assignment. -/
def protos : List (String × Py.Proto) :=
  []

/-- Every place of rfc2631.py that instantiates a class of the package: where, the class as it is
at that point, and the class as it is when the import has finished. -/
def snapshots : List Py.Snapshot :=
  [⟨"rfc2631.py:32", Rfc2631.KeySpecificInfo, Rfc2631.KeySpecificInfo⟩]

/-- Functions rfc2631.py defines. -/
def builders : List (String × (List Py.OidArg → Py.Obj)) :=
  []

def asModule : Py.Module :=
  { id := (Py.mod 12 "rfc2631"), imports := imports, effects := effects, classes := classes, objects := objects, protos := protos, snapshots := snapshots, builders := builders }

end Rfc2631
end Verif
