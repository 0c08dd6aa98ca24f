import Verif.Py.Obj

/-! Transcription of /repo/pyasn1_modules/rfc1902.py (generated by tools/gen.py). -/

namespace Verif
namespace Rfc1902

/-- rfc1902.py:18-21 `class Integer(univ.Integer)` -/
def Integer : Py.Obj :=
  Py.univ.Integer.setSubtypeSpec (Py.univ.Integer.subtypeSpec.add (Py.ValueRangeConstraint (.fin (-2147483648)) (.fin 2147483647)))

/-- rfc1902.py:24-27 `class Integer32(univ.Integer)` -/
def Integer32 : Py.Obj :=
  Py.univ.Integer.setSubtypeSpec (Py.univ.Integer.subtypeSpec.add (Py.ValueRangeConstraint (.fin (-2147483648)) (.fin 2147483647)))

/-- rfc1902.py:30-33 `class OctetString(univ.OctetString)` -/
def OctetString : Py.Obj :=
  Py.univ.OctetString.setSubtypeSpec (Py.univ.Integer.subtypeSpec.add (Py.ValueSizeConstraint (.fin 0) (.fin 65535)))

/-- rfc1902.py:36-42 `class IpAddress(univ.OctetString)` -/
def IpAddress : Py.Obj :=
  (Py.univ.OctetString.setTagSet (Py.univ.OctetString.tagSet.tagImplicitly (Py.Tag .application false 0))).setSubtypeSpec (Py.univ.OctetString.subtypeSpec.add (Py.ValueSizeConstraint (.fin 4) (.fin 4)))

/-- rfc1902.py:45-51 `class Counter32(univ.Integer)` -/
def Counter32 : Py.Obj :=
  (Py.univ.Integer.setTagSet (Py.univ.Integer.tagSet.tagImplicitly (Py.Tag .application false 1))).setSubtypeSpec (Py.univ.Integer.subtypeSpec.add (Py.ValueRangeConstraint (.fin 0) (.fin 4294967295)))

/-- rfc1902.py:54-60 `class Gauge32(univ.Integer)` -/
def Gauge32 : Py.Obj :=
  (Py.univ.Integer.setTagSet (Py.univ.Integer.tagSet.tagImplicitly (Py.Tag .application false 2))).setSubtypeSpec (Py.univ.Integer.subtypeSpec.add (Py.ValueRangeConstraint (.fin 0) (.fin 4294967295)))

/-- rfc1902.py:63-69 `class Unsigned32(univ.Integer)` -/
def Unsigned32 : Py.Obj :=
  (Py.univ.Integer.setTagSet (Py.univ.Integer.tagSet.tagImplicitly (Py.Tag .application false 2))).setSubtypeSpec (Py.univ.Integer.subtypeSpec.add (Py.ValueRangeConstraint (.fin 0) (.fin 4294967295)))

/-- rfc1902.py:72-78 `class TimeTicks(univ.Integer)` -/
def TimeTicks : Py.Obj :=
  (Py.univ.Integer.setTagSet (Py.univ.Integer.tagSet.tagImplicitly (Py.Tag .application false 3))).setSubtypeSpec (Py.univ.Integer.subtypeSpec.add (Py.ValueRangeConstraint (.fin 0) (.fin 4294967295)))

/-- rfc1902.py:81-84 `class Opaque(univ.OctetString)` -/
def Opaque : Py.Obj :=
  Py.univ.OctetString.setTagSet (Py.univ.OctetString.tagSet.tagImplicitly (Py.Tag .application false 4))

/-- rfc1902.py:87-93 `class Counter64(univ.Integer)` -/
def Counter64 : Py.Obj :=
  (Py.univ.Integer.setTagSet (Py.univ.Integer.tagSet.tagImplicitly (Py.Tag .application false 6))).setSubtypeSpec (Py.univ.Integer.subtypeSpec.add (Py.ValueRangeConstraint (.fin 0) (.fin 18446744073709551615)))

/-- rfc1902.py:96-97 `class Bits(univ.OctetString)` -/
def Bits : Py.Obj :=
  Py.univ.OctetString

/-- rfc1902.py:100-101 `class ObjectName(univ.ObjectIdentifier)` -/
def ObjectName : Py.Obj :=
  Py.univ.ObjectIdentifier

/-- rfc1902.py:104-109 `class SimpleSyntax(univ.Choice)` -/
def SimpleSyntax : Py.Obj :=
  Py.univ.Choice.setComponentType (Py.NamedTypes [
    Py.NamedType "integer-value" Rfc1902.Integer.call,
    Py.NamedType "string-value" Rfc1902.OctetString.call,
    Py.NamedType "objectID-value" Py.univ.ObjectIdentifier.call])

/-- rfc1902.py:112-122 `class ApplicationSyntax(univ.Choice)` -/
def ApplicationSyntax : Py.Obj :=
  Py.univ.Choice.setComponentType (Py.NamedTypes [
    Py.NamedType "ipAddress-value" Rfc1902.IpAddress.call,
    Py.NamedType "counter-value" Rfc1902.Counter32.call,
    Py.NamedType "timeticks-value" Rfc1902.TimeTicks.call,
    Py.NamedType "arbitrary-value" Rfc1902.Opaque.call,
    Py.NamedType "big-counter-value" Rfc1902.Counter64.call,
    Py.NamedType "gauge32-value" Rfc1902.Gauge32.call])

/-- rfc1902.py:125-129 `class ObjectSyntax(univ.Choice)` -/
def ObjectSyntax : Py.Obj :=
  Py.univ.Choice.setComponentType (Py.NamedTypes [
    Py.NamedType "simple" Rfc1902.SimpleSyntax.call,
    Py.NamedType "application-wide" Rfc1902.ApplicationSyntax.call])

/-- Modules of this package imported by rfc1902.py, in textual order. -/
def imports : List Py.Ident :=
  []

/-- Dictionary operations executed when rfc1902.py is imported, in program order. -/
def effects : List Py.Effect :=
  []

/-- ASN.1 types rfc1902.py binds at module level (final version of each name), plus nested classes. -/
def classes : List (String × Py.Obj) :=
  [("rfc1902.Integer", Rfc1902.Integer),
   ("rfc1902.Integer32", Rfc1902.Integer32),
   ("rfc1902.OctetString", Rfc1902.OctetString),
   ("rfc1902.IpAddress", Rfc1902.IpAddress),
   ("rfc1902.Counter32", Rfc1902.Counter32),
   ("rfc1902.Gauge32", Rfc1902.Gauge32),
   ("rfc1902.Unsigned32", Rfc1902.Unsigned32),
   ("rfc1902.TimeTicks", Rfc1902.TimeTicks),
   ("rfc1902.Opaque", Rfc1902.Opaque),
   ("rfc1902.Counter64", Rfc1902.Counter64),
   ("rfc1902.Bits", Rfc1902.Bits),
   ("rfc1902.ObjectName", Rfc1902.ObjectName),
   ("rfc1902.SimpleSyntax", Rfc1902.SimpleSyntax),
   ("rfc1902.ApplicationSyntax", Rfc1902.ApplicationSyntax),
   ("rfc1902.ObjectSyntax", Rfc1902.ObjectSyntax)]

/-- pyasn1 instances rfc1902.py binds at module level. -/
def objects : List (String × Py.Obj) :=
  []

/-- pyasn1 instances rfc1902.py fills in by item assignment. -/
def protos : List (String × Py.Proto) :=
  []

/-- Every place of rfc1902.py that instantiates a class of the package: where, the class as it is
at that point, and the class as it is when the import has finished. -/
def snapshots : List Py.Snapshot :=
  [⟨"rfc1902.py:106", Rfc1902.Integer, Rfc1902.Integer⟩,
   ⟨"rfc1902.py:107", Rfc1902.OctetString, Rfc1902.OctetString⟩,
   ⟨"rfc1902.py:114", Rfc1902.IpAddress, Rfc1902.IpAddress⟩,
   ⟨"rfc1902.py:115", Rfc1902.Counter32, Rfc1902.Counter32⟩,
   ⟨"rfc1902.py:116", Rfc1902.TimeTicks, Rfc1902.TimeTicks⟩,
   ⟨"rfc1902.py:117", Rfc1902.Opaque, Rfc1902.Opaque⟩,
   ⟨"rfc1902.py:118", Rfc1902.Counter64, Rfc1902.Counter64⟩,
   ⟨"rfc1902.py:121", Rfc1902.Gauge32, Rfc1902.Gauge32⟩,
   ⟨"rfc1902.py:127", Rfc1902.SimpleSyntax, Rfc1902.SimpleSyntax⟩,
   ⟨"rfc1902.py:128", Rfc1902.ApplicationSyntax, Rfc1902.ApplicationSyntax⟩]

/-- Functions rfc1902.py defines. -/
def builders : List (String × (List Py.OidArg → Py.Obj)) :=
  []

def asModule : Py.Module :=
  { id := (Py.mod 3 "rfc1902"), imports := imports, effects := effects, classes := classes, objects := objects, protos := protos, snapshots := snapshots, builders := builders }

end Rfc1902
end Verif
