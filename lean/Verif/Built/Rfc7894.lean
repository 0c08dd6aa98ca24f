import Verif.Spec.Built
import Verif.Std.Rfc7894
import Verif.Built.Rfc7191
import Verif.Std.Rfc7191

/-! What rfc7894.py implements, where that is not the standard (generated by tools/builtgen.py). -/

namespace Verif
namespace Built
namespace Rfc7894

open Asn1 Verif.Std Spec.X680 Spec.Built

/-- `Attribute ::=`, changed or supplied -/
def Attribute : Ty :=
  Std.Rfc7191.SingleAttribute

/-- `DirectoryString ::=`, changed or supplied -/
def DirectoryString : Ty :=
  CHOICE [
    mandatory "teletexString" (constrained (SIZE 1 255) TeletexString),
    mandatory "printableString" (constrained (SIZE 1 255) PrintableString),
    mandatory "universalString" (constrained (SIZE 1 255) UniversalString),
    mandatory "utf8String" (constrained (SIZE 1 255) UTF8String),
    mandatory "bmpString" (constrained (SIZE 1 255) BMPString)]

def description : Description :=
  ⟨Verif.Rfc7894.asModule,
   [⟨"rfc7894.Attribute", Verif.Rfc7894.Attribute, Built.Rfc7894.Attribute⟩,
    ⟨"rfc7894.DirectoryString", Verif.Rfc7894.DirectoryString, Built.Rfc7894.DirectoryString⟩]⟩

end Rfc7894
end Built
end Verif
