import Verif.Asn1.Objects
import Verif.Std.Rfc8520

/-! The objects of rfc8520 (generated by tools/objgen.py from tools/std/objects.txt). -/

set_option maxRecDepth 100000

namespace Verif
namespace Std
namespace Rfc8520

open Asn1 Spec.X680

def objects : List Object :=
  [⟨.EXTENSION, .oid [1, 3, 6, 1, 5, 5, 7, 1, 25], MUDURLSyntax, (some .same)⟩,
   ⟨.EXTENSION, .oid [1, 3, 6, 1, 5, 5, 7, 1, 30], MUDsignerSyntax, (some .same)⟩]

def unlisted : List (ObjClass × Val) :=
  [(.CONTENT_TYPE, .oid [1, 2, 840, 113549, 1, 9, 16, 1, 41])]

def registered : Objects := ⟨Verif.Rfc8520.asModule, objects, unlisted⟩

end Rfc8520
end Std
end Verif
