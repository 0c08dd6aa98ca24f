import Verif.Asn1.Objects
import Verif.Std.Rfc3565

/-! The objects of rfc3565 (generated by tools/objgen.py from tools/std/objects.txt). -/

set_option maxRecDepth 100000

namespace Verif
namespace Std
namespace Rfc3565

open Asn1 Spec.X680

def objects : List Object :=
  [⟨.ALGORITHM, .oid [2, 16, 840, 1, 101, 3, 4, 1, 2], AES_IV, (some .same)⟩,
   ⟨.ALGORITHM, .oid [2, 16, 840, 1, 101, 3, 4, 1, 22], AES_IV, (some .same)⟩,
   ⟨.ALGORITHM, .oid [2, 16, 840, 1, 101, 3, 4, 1, 42], AES_IV, (some .same)⟩]

def unlisted : List (ObjClass × Val) :=
  [(.ALGORITHM, .oid [2, 16, 840, 1, 101, 3, 4, 1, 5]),
   (.ALGORITHM, .oid [2, 16, 840, 1, 101, 3, 4, 1, 25]),
   (.ALGORITHM, .oid [2, 16, 840, 1, 101, 3, 4, 1, 45])]

def registered : Objects := ⟨Verif.Rfc3565.asModule, objects, unlisted⟩

end Rfc3565
end Std
end Verif
