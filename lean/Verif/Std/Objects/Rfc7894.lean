import Verif.Asn1.Objects
import Verif.Std.Rfc7894

/-! The objects of rfc7894 (generated by tools/objgen.py from tools/std/objects.txt). -/

set_option maxRecDepth 100000

namespace Verif
namespace Std
namespace Rfc7894

open Asn1 Spec.X680

def objects : List Object :=
  [⟨.CMS_ATTRIBUTE, .oid [1, 2, 840, 113549, 1, 9, 16, 2, 56], (CHOICE [
    mandatory "teletexString" (constrained (SIZE 1 255) TeletexString),
    mandatory "printableString" (constrained (SIZE 1 255) PrintableString),
    mandatory "universalString" (constrained (SIZE 1 255) UniversalString),
    mandatory "utf8String" (constrained (SIZE 1 255) UTF8String),
    mandatory "bmpString" (constrained (SIZE 1 255) BMPString)]), (some .same)⟩,
   ⟨.CMS_ATTRIBUTE, .oid [1, 2, 840, 113549, 1, 9, 16, 2, 57], (CHOICE [
    mandatory "teletexString" (constrained (SIZE 1 255) TeletexString),
    mandatory "printableString" (constrained (SIZE 1 255) PrintableString),
    mandatory "universalString" (constrained (SIZE 1 255) UniversalString),
    mandatory "utf8String" (constrained (SIZE 1 255) UTF8String),
    mandatory "bmpString" (constrained (SIZE 1 255) BMPString)]), (some .same)⟩,
   ⟨.CMS_ATTRIBUTE, .oid [1, 2, 840, 113549, 1, 9, 16, 2, 58], (CHOICE [
    mandatory "teletexString" (constrained (SIZE 1 255) TeletexString),
    mandatory "printableString" (constrained (SIZE 1 255) PrintableString),
    mandatory "universalString" (constrained (SIZE 1 255) UniversalString),
    mandatory "utf8String" (constrained (SIZE 1 255) UTF8String),
    mandatory "bmpString" (constrained (SIZE 1 255) BMPString)]), (some .same)⟩]

def unlisted : List (ObjClass × Val) :=
  []

def registered : Objects := ⟨Verif.Rfc7894.asModule, objects, unlisted⟩

end Rfc7894
end Std
end Verif
