import Verif.Spec.Grade
import Verif.Gen.Rfc1902

/-! The ASN.1 of tools/std/rfc1902.asn1 (generated by tools/stdgen.py). -/

namespace Verif
namespace Std
namespace Rfc1902

open Asn1 Spec.X680

/-- `ObjectName ::=` -/
def ObjectName : Ty :=
  OBJECT_IDENTIFIER

/-- `NotificationName ::=` -/
def NotificationName : Ty :=
  OBJECT_IDENTIFIER

/-- `SimpleSyntax ::=` -/
def SimpleSyntax : Ty :=
  CHOICE [
    mandatory "integer-value" (constrained (RANGE (-2147483648) 2147483647) INTEGER),
    mandatory "string-value" (constrained (SIZE 0 65535) OCTET_STRING),
    mandatory "objectID-value" OBJECT_IDENTIFIER]

/-- `IpAddress ::=` -/
def IpAddress : Ty :=
  implicit .application 0 (constrained (SIZE 4 4) OCTET_STRING)

/-- `Counter32 ::=` -/
def Counter32 : Ty :=
  implicit .application 1 (constrained (RANGE 0 4294967295) INTEGER)

/-- `TimeTicks ::=` -/
def TimeTicks : Ty :=
  implicit .application 3 (constrained (RANGE 0 4294967295) INTEGER)

/-- `Opaque ::=` -/
def Opaque : Ty :=
  implicit .application 4 OCTET_STRING

/-- `Counter64 ::=` -/
def Counter64 : Ty :=
  implicit .application 6 (constrained (RANGE 0 18446744073709551615) INTEGER)

/-- `Unsigned32 ::=` -/
def Unsigned32 : Ty :=
  implicit .application 2 (constrained (RANGE 0 4294967295) INTEGER)

/-- `ApplicationSyntax ::=` -/
def ApplicationSyntax : Ty :=
  CHOICE [
    mandatory "ipAddress-value" IpAddress,
    mandatory "counter-value" Counter32,
    mandatory "timeticks-value" TimeTicks,
    mandatory "arbitrary-value" Opaque,
    mandatory "big-counter-value" Counter64,
    mandatory "unsigned-integer-value" Unsigned32]

/-- `ObjectSyntax ::=` -/
def ObjectSyntax : Ty :=
  CHOICE [
    mandatory "simple" SimpleSyntax,
    mandatory "application-wide" ApplicationSyntax]

/-- `Integer32 ::=` -/
def Integer32 : Ty :=
  constrained (RANGE (-2147483648) 2147483647) INTEGER

/-- `Gauge32 ::=` -/
def Gauge32 : Ty :=
  implicit .application 2 (constrained (RANGE 0 4294967295) INTEGER)

/-- Classes of rfc1902.py and the types of the standard they implement. -/
def entries : List Entry :=
  [⟨"rfc1902.Integer32", Verif.Rfc1902.Integer32, Integer32, .same, false⟩,
   ⟨"rfc1902.IpAddress", Verif.Rfc1902.IpAddress, IpAddress, .same, false⟩,
   ⟨"rfc1902.Counter32", Verif.Rfc1902.Counter32, Counter32, .same, false⟩,
   ⟨"rfc1902.Gauge32", Verif.Rfc1902.Gauge32, Gauge32, .same, false⟩,
   ⟨"rfc1902.Unsigned32", Verif.Rfc1902.Unsigned32, Unsigned32, .same, false⟩,
   ⟨"rfc1902.TimeTicks", Verif.Rfc1902.TimeTicks, TimeTicks, .same, false⟩,
   ⟨"rfc1902.Opaque", Verif.Rfc1902.Opaque, Opaque, .same, false⟩,
   ⟨"rfc1902.Counter64", Verif.Rfc1902.Counter64, Counter64, .same, false⟩,
   ⟨"rfc1902.ObjectName", Verif.Rfc1902.ObjectName, ObjectName, .same, false⟩,
   ⟨"rfc1902.SimpleSyntax", Verif.Rfc1902.SimpleSyntax, SimpleSyntax, .same, false⟩,
   ⟨"rfc1902.ApplicationSyntax", Verif.Rfc1902.ApplicationSyntax, ApplicationSyntax, .same, true⟩,
   ⟨"rfc1902.ObjectSyntax", Verif.Rfc1902.ObjectSyntax, ObjectSyntax, .same, true⟩]

/-- Classes of rfc1902.py the transcription of the standard has no type for. -/
def beyond : List String :=
  ["rfc1902.Integer",
   "rfc1902.OctetString",
   "rfc1902.Bits"]

/-- Constants of rfc1902.py and the values the standard gives them. -/
def constants : List Constant :=
  []

/-- Constants of rfc1902.py the transcription of the standard has no value for. -/
def others : List String :=
  []

def standard : Standard := ⟨Verif.Rfc1902.asModule, entries, beyond, constants, others⟩

end Rfc1902
end Std
end Verif
