import Verif.Spec.Built
import Verif.Std.Rfc5917

/-! What rfc5917.py implements, where that is not the standard (generated by tools/builtgen.py). -/

namespace Verif
namespace Built
namespace Rfc5917

open Asn1 Verif.Std Spec.X680 Spec.Built

/-- `DirectoryString ::=`, changed or supplied -/
def DirectoryString : Ty :=
  CHOICE [
    mandatory "utf8String" (constrained (SIZE 1 64) UTF8String)]

def description : Description :=
  ⟨Verif.Rfc5917.asModule,
   [⟨"rfc5917.DirectoryString", Verif.Rfc5917.DirectoryString, Built.Rfc5917.DirectoryString⟩]⟩

end Rfc5917
end Built
end Verif
