import Verif.Asn1.Objects
import Verif.Std.Rfc4490

/-! The objects of rfc4490 (generated by tools/objgen.py from tools/std/objects.txt). -/

set_option maxRecDepth 100000

namespace Verif
namespace Std
namespace Rfc4490

open Asn1 Spec.X680

def objects : List Object :=
  [⟨.ALGORITHM, .oid [1, 2, 643, 2, 2, 13, 1], Gost28147_89_KeyWrapParameters, (some .same)⟩,
   ⟨.ALGORITHM, .oid [1, 2, 643, 2, 2, 13, 0], Gost28147_89_KeyWrapParameters, (some .same)⟩]

def unlisted : List (ObjClass × Val) :=
  []

def registered : Objects := ⟨Verif.Rfc4490.asModule, objects, unlisted⟩

end Rfc4490
end Std
end Verif
