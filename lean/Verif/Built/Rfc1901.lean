import Verif.Spec.Built
import Verif.Std.Rfc1901

/-! What rfc1901.py implements, where that is not the standard (generated by tools/builtgen.py). -/

namespace Verif
namespace Built
namespace Rfc1901

open Asn1 Verif.Std Spec.X680 Spec.Built

/-- `Message ::=`, changed or supplied -/
def Message : Ty :=
  SEQUENCE [
    mandatory "version" (named [("version-2c", 1)] INTEGER),
    mandatory "community" OCTET_STRING,
    mandatory "data" ANY]

def description : Description :=
  ⟨Verif.Rfc1901.asModule,
   [⟨"rfc1901.Message", Verif.Rfc1901.Message, Built.Rfc1901.Message⟩]⟩

end Rfc1901
end Built
end Verif
