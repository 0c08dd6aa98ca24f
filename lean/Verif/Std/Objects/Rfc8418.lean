import Verif.Asn1.Objects
import Verif.Std.Rfc8418

/-! The objects of rfc8418 (generated by tools/objgen.py from tools/std/objects.txt). -/

set_option maxRecDepth 100000

namespace Verif
namespace Std
namespace Rfc8418

open Asn1 Spec.X680

def objects : List Object :=
  [⟨.ALGORITHM, .oid [1, 2, 840, 113549, 1, 9, 16, 3, 19], KeyWrapAlgorithmIdentifier, none⟩,
   ⟨.ALGORITHM, .oid [1, 2, 840, 113549, 1, 9, 16, 3, 20], KeyWrapAlgorithmIdentifier, none⟩,
   ⟨.ALGORITHM, .oid [1, 2, 840, 113549, 1, 9, 16, 3, 21], KeyWrapAlgorithmIdentifier, none⟩]

def unlisted : List (ObjClass × Val) :=
  []

def registered : Objects := ⟨Verif.Rfc8418.asModule, objects, unlisted⟩

end Rfc8418
end Std
end Verif
