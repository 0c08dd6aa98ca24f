import Verif.Spec.Built
import Verif.Std.Rfc3779

/-! What rfc3779.py implements, where that is not the standard (generated by tools/builtgen.py). -/

namespace Verif
namespace Built
namespace Rfc3779

open Asn1 Verif.Std Spec.X680 Spec.Built

def description : Description :=
  ⟨Verif.Rfc3779.asModule,
   [⟨"rfc3779.IPAddress", Verif.Rfc3779.IPAddress, Std.Rfc3779.IPAddress⟩,
    ⟨"rfc3779.IPAddressRange", Verif.Rfc3779.IPAddressRange, Std.Rfc3779.IPAddressRange⟩,
    ⟨"rfc3779.IPAddressOrRange", Verif.Rfc3779.IPAddressOrRange, Std.Rfc3779.IPAddressOrRange⟩,
    ⟨"rfc3779.IPAddressChoice", Verif.Rfc3779.IPAddressChoice, Std.Rfc3779.IPAddressChoice⟩,
    ⟨"rfc3779.IPAddressFamily", Verif.Rfc3779.IPAddressFamily, Std.Rfc3779.IPAddressFamily⟩,
    ⟨"rfc3779.IPAddrBlocks", Verif.Rfc3779.IPAddrBlocks, Std.Rfc3779.IPAddrBlocks⟩,
    ⟨"rfc3779.ASId", Verif.Rfc3779.ASId, Std.Rfc3779.ASId⟩,
    ⟨"rfc3779.ASRange", Verif.Rfc3779.ASRange, Std.Rfc3779.ASRange⟩,
    ⟨"rfc3779.ASIdOrRange", Verif.Rfc3779.ASIdOrRange, Std.Rfc3779.ASIdOrRange⟩,
    ⟨"rfc3779.ASIdentifierChoice", Verif.Rfc3779.ASIdentifierChoice, Std.Rfc3779.ASIdentifierChoice⟩,
    ⟨"rfc3779.ASIdentifiers", Verif.Rfc3779.ASIdentifiers, Std.Rfc3779.ASIdentifiers⟩]⟩

end Rfc3779
end Built
end Verif
