import Verif.Spec.Built
import Verif.Std.Rfc1155

/-! What rfc1155.py implements, where that is not the standard (generated by tools/builtgen.py). -/

namespace Verif
namespace Built
namespace Rfc1155

open Asn1 Verif.Std Spec.X680 Spec.Built

def description : Description :=
  ⟨Verif.Rfc1155.asModule,
   [⟨"rfc1155.ObjectName", Verif.Rfc1155.ObjectName, Std.Rfc1155.ObjectName⟩,
    ⟨"rfc1155.SimpleSyntax", Verif.Rfc1155.SimpleSyntax, Std.Rfc1155.SimpleSyntax⟩,
    ⟨"rfc1155.IpAddress", Verif.Rfc1155.IpAddress, Std.Rfc1155.IpAddress⟩,
    ⟨"rfc1155.NetworkAddress", Verif.Rfc1155.NetworkAddress, Std.Rfc1155.NetworkAddress⟩,
    ⟨"rfc1155.Counter", Verif.Rfc1155.Counter, Std.Rfc1155.Counter⟩,
    ⟨"rfc1155.Gauge", Verif.Rfc1155.Gauge, Std.Rfc1155.Gauge⟩,
    ⟨"rfc1155.TimeTicks", Verif.Rfc1155.TimeTicks, Std.Rfc1155.TimeTicks⟩,
    ⟨"rfc1155.Opaque", Verif.Rfc1155.Opaque, Std.Rfc1155.Opaque⟩,
    ⟨"rfc1155.ApplicationSyntax", Verif.Rfc1155.ApplicationSyntax, Std.Rfc1155.ApplicationSyntax⟩,
    ⟨"rfc1155.ObjectSyntax", Verif.Rfc1155.ObjectSyntax, Std.Rfc1155.ObjectSyntax⟩]⟩

end Rfc1155
end Built
end Verif
