import Verif.Spec.Grade
import Verif.Gen.Rfc1155

/-! The ASN.1 of tools/std/rfc1155.asn1 (generated by tools/stdgen.py). -/

namespace Verif
namespace Std
namespace Rfc1155

open Asn1 Spec.X680

/-- `ObjectName ::=` -/
def ObjectName : Ty :=
  OBJECT_IDENTIFIER

/-- `SimpleSyntax ::=` -/
def SimpleSyntax : Ty :=
  CHOICE [
    mandatory "number" INTEGER,
    mandatory "string" OCTET_STRING,
    mandatory "object" OBJECT_IDENTIFIER,
    mandatory "empty" NULL]

/-- `IpAddress ::=` -/
def IpAddress : Ty :=
  implicit .application 0 (constrained (SIZE 4 4) OCTET_STRING)

/-- `NetworkAddress ::=` -/
def NetworkAddress : Ty :=
  CHOICE [
    mandatory "internet" IpAddress]

/-- `Counter ::=` -/
def Counter : Ty :=
  implicit .application 1 (constrained (RANGE 0 4294967295) INTEGER)

/-- `Gauge ::=` -/
def Gauge : Ty :=
  implicit .application 2 (constrained (RANGE 0 4294967295) INTEGER)

/-- `TimeTicks ::=` -/
def TimeTicks : Ty :=
  implicit .application 3 (constrained (RANGE 0 4294967295) INTEGER)

/-- `Opaque ::=` -/
def Opaque : Ty :=
  implicit .application 4 OCTET_STRING

/-- `ApplicationSyntax ::=` -/
def ApplicationSyntax : Ty :=
  CHOICE [
    mandatory "address" NetworkAddress,
    mandatory "counter" Counter,
    mandatory "gauge" Gauge,
    mandatory "ticks" TimeTicks,
    mandatory "arbitrary" Opaque]

/-- `ObjectSyntax ::=` -/
def ObjectSyntax : Ty :=
  CHOICE [
    mandatory "simple" SimpleSyntax,
    mandatory "application-wide" ApplicationSyntax]

/-- Classes of rfc1155.py and the types of the standard they implement. -/
def entries : List Entry :=
  [⟨"rfc1155.ObjectName", Verif.Rfc1155.ObjectName, ObjectName, .same, false⟩,
   ⟨"rfc1155.SimpleSyntax", Verif.Rfc1155.SimpleSyntax, SimpleSyntax, .same, false⟩,
   ⟨"rfc1155.IpAddress", Verif.Rfc1155.IpAddress, IpAddress, .same, false⟩,
   ⟨"rfc1155.NetworkAddress", Verif.Rfc1155.NetworkAddress, NetworkAddress, .same, false⟩,
   ⟨"rfc1155.Counter", Verif.Rfc1155.Counter, Counter, .same, false⟩,
   ⟨"rfc1155.Gauge", Verif.Rfc1155.Gauge, Gauge, .same, false⟩,
   ⟨"rfc1155.TimeTicks", Verif.Rfc1155.TimeTicks, TimeTicks, .same, false⟩,
   ⟨"rfc1155.Opaque", Verif.Rfc1155.Opaque, Opaque, .same, false⟩,
   ⟨"rfc1155.ApplicationSyntax", Verif.Rfc1155.ApplicationSyntax, ApplicationSyntax, .same, false⟩,
   ⟨"rfc1155.ObjectSyntax", Verif.Rfc1155.ObjectSyntax, ObjectSyntax, .same, false⟩]

/-- Classes of rfc1155.py the transcription of the standard has no type for. -/
def beyond : List String :=
  []

/-- Constants of rfc1155.py and the values the standard gives them. -/
def constants : List Constant :=
  []

/-- Constants of rfc1155.py the transcription of the standard has no value for. -/
def others : List String :=
  []

def standard : Standard := ⟨Verif.Rfc1155.asModule, entries, beyond, constants, others⟩

end Rfc1155
end Std
end Verif
