import Verif.Spec.Built
import Verif.Std.Rfc8398

/-! What rfc8398.py implements, where that is not the standard (generated by tools/builtgen.py). -/

namespace Verif
namespace Built
namespace Rfc8398

open Asn1 Verif.Std Spec.X680 Spec.Built

def description : Description :=
  ⟨Verif.Rfc8398.asModule,
   [⟨"rfc8398.SmtpUTF8Mailbox", Verif.Rfc8398.SmtpUTF8Mailbox, Std.Rfc8398.SmtpUTF8Mailbox⟩]⟩

end Rfc8398
end Built
end Verif
