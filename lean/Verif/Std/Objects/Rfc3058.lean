import Verif.Asn1.Objects
import Verif.Std.Rfc3058

/-! The objects of rfc3058 (generated by tools/objgen.py from tools/std/objects.txt). -/

set_option maxRecDepth 100000

namespace Verif
namespace Std
namespace Rfc3058

open Asn1 Spec.X680

def objects : List Object :=
  [⟨.ALGORITHM, .oid [1, 3, 6, 1, 4, 1, 188, 7, 1, 1, 2], IDEA_CBCPar, (some .same)⟩,
   ⟨.ALGORITHM, .oid [1, 3, 6, 1, 4, 1, 188, 7, 1, 1, 6], NULL, (some .same)⟩]

def unlisted : List (ObjClass × Val) :=
  []

def registered : Objects := ⟨Verif.Rfc3058.asModule, objects, unlisted⟩

end Rfc3058
end Std
end Verif
