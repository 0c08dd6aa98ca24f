import Verif.Asn1.Objects
import Verif.Std.Rfc8649

/-! The objects of rfc8649 (generated by tools/objgen.py from tools/std/objects.txt). -/

set_option maxRecDepth 100000

namespace Verif
namespace Std
namespace Rfc8649

open Asn1 Spec.X680

def objects : List Object :=
  [⟨.EXTENSION, .oid [1, 3, 6, 1, 4, 1, 51483, 2, 1], HashedRootKey, (some .same)⟩]

def unlisted : List (ObjClass × Val) :=
  []

def registered : Objects := ⟨Verif.Rfc8649.asModule, objects, unlisted⟩

end Rfc8649
end Std
end Verif
