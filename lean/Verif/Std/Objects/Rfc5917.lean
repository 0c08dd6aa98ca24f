import Verif.Asn1.Objects
import Verif.Std.Rfc5917

/-! The objects of rfc5917 (generated by tools/objgen.py from tools/std/objects.txt). -/

set_option maxRecDepth 100000

namespace Verif
namespace Std
namespace Rfc5917

open Asn1 Spec.X680

def objects : List Object :=
  [⟨.ATTRIBUTE, .oid [2, 16, 840, 1, 101, 2, 1, 5, 68], (CHOICE [
    mandatory "utf8String" (constrained (SIZE 1 64) UTF8String)]), (some .same)⟩]

def unlisted : List (ObjClass × Val) :=
  []

def registered : Objects := ⟨Verif.Rfc5917.asModule, objects, unlisted⟩

end Rfc5917
end Std
end Verif
