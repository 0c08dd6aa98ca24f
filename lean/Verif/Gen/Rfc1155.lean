import Verif.Py.Obj

/-! Transcription of /repo/pyasn1_modules/rfc1155.py (generated by tools/gen.py). -/

namespace Verif
namespace Rfc1155

/-- rfc1155.py:21-22 `class ObjectName(univ.ObjectIdentifier)` -/
def ObjectName : Py.Obj :=
  Py.univ.ObjectIdentifier

/-- rfc1155.py:25-31 `class SimpleSyntax(univ.Choice)` -/
def SimpleSyntax : Py.Obj :=
  Py.univ.Choice.setComponentType (Py.NamedTypes [
    Py.NamedType "number" Py.univ.Integer.call,
    Py.NamedType "string" Py.univ.OctetString.call,
    Py.NamedType "object" Py.univ.ObjectIdentifier.call,
    Py.NamedType "empty" Py.univ.Null.call])

/-- rfc1155.py:34-40 `class IpAddress(univ.OctetString)` -/
def IpAddress : Py.Obj :=
  (Py.univ.OctetString.setTagSet (Py.univ.OctetString.tagSet.tagImplicitly (Py.Tag .application false 0))).setSubtypeSpec (Py.univ.Integer.subtypeSpec.add (Py.ValueSizeConstraint (.fin 4) (.fin 4)))

/-- rfc1155.py:43-46 `class NetworkAddress(univ.Choice)` -/
def NetworkAddress : Py.Obj :=
  Py.univ.Choice.setComponentType (Py.NamedTypes [
    Py.NamedType "internet" Rfc1155.IpAddress.call])

/-- rfc1155.py:49-55 `class Counter(univ.Integer)` -/
def Counter : Py.Obj :=
  (Py.univ.Integer.setTagSet (Py.univ.Integer.tagSet.tagImplicitly (Py.Tag .application false 1))).setSubtypeSpec (Py.univ.Integer.subtypeSpec.add (Py.ValueRangeConstraint (.fin 0) (.fin 4294967295)))

/-- rfc1155.py:58-64 `class Gauge(univ.Integer)` -/
def Gauge : Py.Obj :=
  (Py.univ.Integer.setTagSet (Py.univ.Integer.tagSet.tagImplicitly (Py.Tag .application false 2))).setSubtypeSpec (Py.univ.Integer.subtypeSpec.add (Py.ValueRangeConstraint (.fin 0) (.fin 4294967295)))

/-- rfc1155.py:67-73 `class TimeTicks(univ.Integer)` -/
def TimeTicks : Py.Obj :=
  (Py.univ.Integer.setTagSet (Py.univ.Integer.tagSet.tagImplicitly (Py.Tag .application false 3))).setSubtypeSpec (Py.univ.Integer.subtypeSpec.add (Py.ValueRangeConstraint (.fin 0) (.fin 4294967295)))

/-- rfc1155.py:76-79 `class Opaque(univ.OctetString)` -/
def Opaque : Py.Obj :=
  Py.univ.OctetString.setTagSet (Py.univ.OctetString.tagSet.tagImplicitly (Py.Tag .application false 4))

/-- rfc1155.py:82-89 `class ApplicationSyntax(univ.Choice)` -/
def ApplicationSyntax : Py.Obj :=
  Py.univ.Choice.setComponentType (Py.NamedTypes [
    Py.NamedType "address" Rfc1155.NetworkAddress.call,
    Py.NamedType "counter" Rfc1155.Counter.call,
    Py.NamedType "gauge" Rfc1155.Gauge.call,
    Py.NamedType "ticks" Rfc1155.TimeTicks.call,
    Py.NamedType "arbitrary" Rfc1155.Opaque.call])

/-- rfc1155.py:92-96 `class ObjectSyntax(univ.Choice)` -/
def ObjectSyntax : Py.Obj :=
  Py.univ.Choice.setComponentType (Py.NamedTypes [
    Py.NamedType "simple" Rfc1155.SimpleSyntax.call,
    Py.NamedType "application-wide" Rfc1155.ApplicationSyntax.call])

/-- Modules of this package imported by rfc1155.py, in textual order. -/
def imports : List Py.Ident :=
  []

/-- Dictionary operations executed when rfc1155.py is imported, in program order. -/
def effects : List Py.Effect :=
  []

/-- ASN.1 types rfc1155.py binds at module level (final version of each name), plus nested classes. -/
def classes : List (String × Py.Obj) :=
  [("rfc1155.ObjectName", Rfc1155.ObjectName),
   ("rfc1155.SimpleSyntax", Rfc1155.SimpleSyntax),
   ("rfc1155.IpAddress", Rfc1155.IpAddress),
   ("rfc1155.NetworkAddress", Rfc1155.NetworkAddress),
   ("rfc1155.Counter", Rfc1155.Counter),
   ("rfc1155.Gauge", Rfc1155.Gauge),
   ("rfc1155.TimeTicks", Rfc1155.TimeTicks),
   ("rfc1155.Opaque", Rfc1155.Opaque),
   ("rfc1155.ApplicationSyntax", Rfc1155.ApplicationSyntax),
   ("rfc1155.ObjectSyntax", Rfc1155.ObjectSyntax)]

/-- pyasn1 instances rfc1155.py binds at module level. -/
def objects : List (String × Py.Obj) :=
  []

/-- pyasn1 instances rfc1155.py fills in by item assignment. -/
def protos : List (String × Py.Proto) :=
  []

/-- Every place of rfc1155.py that instantiates a class of the package: where, the class as it is
at that point, and the class as it is when the import has finished. -/
def snapshots : List Py.Snapshot :=
  [⟨"rfc1155.py:45", Rfc1155.IpAddress, Rfc1155.IpAddress⟩,
   ⟨"rfc1155.py:84", Rfc1155.NetworkAddress, Rfc1155.NetworkAddress⟩,
   ⟨"rfc1155.py:85", Rfc1155.Counter, Rfc1155.Counter⟩,
   ⟨"rfc1155.py:86", Rfc1155.Gauge, Rfc1155.Gauge⟩,
   ⟨"rfc1155.py:87", Rfc1155.TimeTicks, Rfc1155.TimeTicks⟩,
   ⟨"rfc1155.py:88", Rfc1155.Opaque, Rfc1155.Opaque⟩,
   ⟨"rfc1155.py:94", Rfc1155.SimpleSyntax, Rfc1155.SimpleSyntax⟩,
   ⟨"rfc1155.py:95", Rfc1155.ApplicationSyntax, Rfc1155.ApplicationSyntax⟩]

/-- Functions rfc1155.py defines. -/
def builders : List (String × (List Py.OidArg → Py.Obj)) :=
  []

def asModule : Py.Module :=
  { id := (Py.mod 0 "rfc1155"), imports := imports, effects := effects, classes := classes, objects := objects, protos := protos, snapshots := snapshots, builders := builders }

end Rfc1155
end Verif
