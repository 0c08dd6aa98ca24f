import Verif.Asn1.Objects
import Verif.Std.Rfc8360

/-! The objects of rfc8360 (generated by tools/objgen.py from tools/std/objects.txt). -/

set_option maxRecDepth 100000

namespace Verif
namespace Std
namespace Rfc8360

open Asn1 Spec.X680

def objects : List Object :=
  [⟨.EXTENSION, .oid [1, 3, 6, 1, 5, 5, 7, 1, 28], Std.Rfc3779.IPAddrBlocks, (some .same)⟩,
   ⟨.EXTENSION, .oid [1, 3, 6, 1, 5, 5, 7, 1, 29], Std.Rfc3779.ASIdentifiers, (some .same)⟩]

def unlisted : List (ObjClass × Val) :=
  []

def registered : Objects := ⟨Verif.Rfc8360.asModule, objects, unlisted⟩

end Rfc8360
end Std
end Verif
