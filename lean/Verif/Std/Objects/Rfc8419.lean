import Verif.Asn1.Objects
import Verif.Std.Rfc8419

/-! The objects of rfc8419 (generated by tools/objgen.py from tools/std/objects.txt). -/

set_option maxRecDepth 100000

namespace Verif
namespace Std
namespace Rfc8419

open Asn1 Spec.X680

def objects : List Object :=
  [⟨.ALGORITHM, .oid [2, 16, 840, 1, 101, 3, 4, 2, 18], ShakeOutputLen, (some .same)⟩]

def unlisted : List (ObjClass × Val) :=
  []

def registered : Objects := ⟨Verif.Rfc8419.asModule, objects, unlisted⟩

end Rfc8419
end Std
end Verif
