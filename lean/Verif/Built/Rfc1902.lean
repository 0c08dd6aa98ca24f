import Verif.Spec.Built
import Verif.Std.Rfc1902

/-! What rfc1902.py implements, where that is not the standard (generated by tools/builtgen.py). -/

namespace Verif
namespace Built
namespace Rfc1902

open Asn1 Verif.Std Spec.X680 Spec.Built

/-- `ApplicationSyntax ::=`, changed or supplied -/
def ApplicationSyntax : Ty :=
  CHOICE [
    mandatory "ipAddress-value" Std.Rfc1902.IpAddress,
    mandatory "counter-value" Std.Rfc1902.Counter32,
    mandatory "timeticks-value" Std.Rfc1902.TimeTicks,
    mandatory "arbitrary-value" Std.Rfc1902.Opaque,
    mandatory "big-counter-value" Std.Rfc1902.Counter64,
    mandatory "gauge32-value" Std.Rfc1902.Gauge32]

/-- `ObjectSyntax ::=` -/
def ObjectSyntax : Ty :=
  CHOICE [
    mandatory "simple" Std.Rfc1902.SimpleSyntax,
    mandatory "application-wide" Built.Rfc1902.ApplicationSyntax]

/-- `Integer ::=`, changed or supplied -/
def Integer : Ty :=
  constrained (RANGE (-2147483648) 2147483647) INTEGER

/-- `OctetString ::=`, changed or supplied -/
def OctetString : Ty :=
  constrained (SIZE 0 65535) OCTET_STRING

/-- `Bits ::=`, changed or supplied -/
def Bits : Ty :=
  OCTET_STRING

def description : Description :=
  ⟨Verif.Rfc1902.asModule,
   [⟨"rfc1902.Integer", Verif.Rfc1902.Integer, Built.Rfc1902.Integer⟩,
    ⟨"rfc1902.Integer32", Verif.Rfc1902.Integer32, Std.Rfc1902.Integer32⟩,
    ⟨"rfc1902.OctetString", Verif.Rfc1902.OctetString, Built.Rfc1902.OctetString⟩,
    ⟨"rfc1902.IpAddress", Verif.Rfc1902.IpAddress, Std.Rfc1902.IpAddress⟩,
    ⟨"rfc1902.Counter32", Verif.Rfc1902.Counter32, Std.Rfc1902.Counter32⟩,
    ⟨"rfc1902.Gauge32", Verif.Rfc1902.Gauge32, Std.Rfc1902.Gauge32⟩,
    ⟨"rfc1902.Unsigned32", Verif.Rfc1902.Unsigned32, Std.Rfc1902.Unsigned32⟩,
    ⟨"rfc1902.TimeTicks", Verif.Rfc1902.TimeTicks, Std.Rfc1902.TimeTicks⟩,
    ⟨"rfc1902.Opaque", Verif.Rfc1902.Opaque, Std.Rfc1902.Opaque⟩,
    ⟨"rfc1902.Counter64", Verif.Rfc1902.Counter64, Std.Rfc1902.Counter64⟩,
    ⟨"rfc1902.Bits", Verif.Rfc1902.Bits, Built.Rfc1902.Bits⟩,
    ⟨"rfc1902.ObjectName", Verif.Rfc1902.ObjectName, Std.Rfc1902.ObjectName⟩,
    ⟨"rfc1902.SimpleSyntax", Verif.Rfc1902.SimpleSyntax, Std.Rfc1902.SimpleSyntax⟩,
    ⟨"rfc1902.ApplicationSyntax", Verif.Rfc1902.ApplicationSyntax, Built.Rfc1902.ApplicationSyntax⟩,
    ⟨"rfc1902.ObjectSyntax", Verif.Rfc1902.ObjectSyntax, Built.Rfc1902.ObjectSyntax⟩]⟩

end Rfc1902
end Built
end Verif
