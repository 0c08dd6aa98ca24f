import Verif.Asn1.Objects
import Verif.Std.Rfc3537

/-! The objects of rfc3537 (generated by tools/objgen.py from tools/std/objects.txt). -/

set_option maxRecDepth 100000

namespace Verif
namespace Std
namespace Rfc3537

open Asn1 Spec.X680

def objects : List Object :=
  [⟨.ALGORITHM, .oid [1, 2, 840, 113549, 1, 9, 16, 3, 11], NULL, (some .same)⟩,
   ⟨.ALGORITHM, .oid [1, 2, 840, 113549, 1, 9, 16, 3, 12], NULL, (some .same)⟩]

def unlisted : List (ObjClass × Val) :=
  []

def registered : Objects := ⟨Verif.Rfc3537.asModule, objects, unlisted⟩

end Rfc3537
end Std
end Verif
