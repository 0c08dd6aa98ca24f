import Verif.Asn1.Objects
import Verif.Std.Rfc3709

/-! The objects of rfc3709 (generated by tools/objgen.py from tools/std/objects.txt). -/

set_option maxRecDepth 100000

namespace Verif
namespace Std
namespace Rfc3709

open Asn1 Spec.X680

def objects : List Object :=
  [⟨.EXTENSION, .oid [1, 3, 6, 1, 5, 5, 7, 1, 12], LogotypeExtn, (some .same)⟩]

def unlisted : List (ObjClass × Val) :=
  []

def registered : Objects := ⟨Verif.Rfc3709.asModule, objects, unlisted⟩

end Rfc3709
end Std
end Verif
