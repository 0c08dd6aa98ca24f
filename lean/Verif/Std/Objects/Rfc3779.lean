import Verif.Asn1.Objects
import Verif.Std.Rfc3779

/-! The objects of rfc3779 (generated by tools/objgen.py from tools/std/objects.txt). -/

set_option maxRecDepth 100000

namespace Verif
namespace Std
namespace Rfc3779

open Asn1 Spec.X680

def objects : List Object :=
  [⟨.EXTENSION, .oid [1, 3, 6, 1, 5, 5, 7, 1, 7], IPAddrBlocks, (some .same)⟩,
   ⟨.EXTENSION, .oid [1, 3, 6, 1, 5, 5, 7, 1, 8], ASIdentifiers, (some .same)⟩]

def unlisted : List (ObjClass × Val) :=
  []

def registered : Objects := ⟨Verif.Rfc3779.asModule, objects, unlisted⟩

end Rfc3779
end Std
end Verif
