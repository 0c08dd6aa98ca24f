import Verif.Py.Obj

/-! Transcription of /repo/pyasn1_modules/rfc3414.py (generated by tools/gen.py). -/

namespace Verif
namespace Rfc3414

/-- rfc3414.py:17-28 `class UsmSecurityParameters(univ.Sequence)` -/
def UsmSecurityParameters : Py.Obj :=
  Py.univ.Sequence.setComponentType (Py.NamedTypes [
    Py.NamedType "msgAuthoritativeEngineID" Py.univ.OctetString.call,
    Py.NamedType "msgAuthoritativeEngineBoots" (Py.univ.Integer.call.addSubtypeSpec (Py.ValueRangeConstraint (.fin 0) (.fin 2147483647))),
    Py.NamedType "msgAuthoritativeEngineTime" (Py.univ.Integer.call.addSubtypeSpec (Py.ValueRangeConstraint (.fin 0) (.fin 2147483647))),
    Py.NamedType "msgUserName" (Py.univ.OctetString.call.addSubtypeSpec (Py.ValueSizeConstraint (.fin 0) (.fin 32))),
    Py.NamedType "msgAuthenticationParameters" Py.univ.OctetString.call,
    Py.NamedType "msgPrivacyParameters" Py.univ.OctetString.call])

/-- Modules of this package imported by rfc3414.py, in textual order. -/
def imports : List Py.Ident :=
  []

/-- Dictionary operations executed when rfc3414.py is imported, in program order. -/
def effects : List Py.Effect :=
  []

/-- ASN.1 types rfc3414.py binds at module level (final version of each name), plus nested classes. -/
def classes : List (String × Py.Obj) :=
  [("rfc3414.UsmSecurityParameters", Rfc3414.UsmSecurityParameters)]

/-- pyasn1 instances rfc3414.py binds at module level. -/
def objects : List (String × Py.Obj) :=
  []

/-- pyasn1 instances rfc3414.py fills in by item assignment. -/
def protos : List (String × Py.Proto) :=
  []

/-- Every place of rfc3414.py that instantiates a class of the package: where, the class as it is
at that point, and the class as it is when the import has finished. -/
def snapshots : List Py.Snapshot :=
  []

/-- Functions rfc3414.py defines. -/
def builders : List (String × (List Py.OidArg → Py.Obj)) :=
  []

def asModule : Py.Module :=
  { id := (Py.mod 39 "rfc3414"), imports := imports, effects := effects, classes := classes, objects := objects, protos := protos, snapshots := snapshots, builders := builders }

end Rfc3414
end Verif
