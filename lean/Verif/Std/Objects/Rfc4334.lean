import Verif.Asn1.Objects
import Verif.Std.Rfc4334

/-! The objects of rfc4334 (generated by tools/objgen.py from tools/std/objects.txt). -/

set_option maxRecDepth 100000

namespace Verif
namespace Std
namespace Rfc4334

open Asn1 Spec.X680

def objects : List Object :=
  [⟨.EXTENSION, .oid [1, 3, 6, 1, 5, 5, 7, 1, 13], SSIDList, (some .relaxed)⟩,
   ⟨.ATTRIBUTE, .oid [1, 3, 6, 1, 5, 5, 7, 10, 7], SSIDList, (some .relaxed)⟩]

def unlisted : List (ObjClass × Val) :=
  []

def registered : Objects := ⟨Verif.Rfc4334.asModule, objects, unlisted⟩

end Rfc4334
end Std
end Verif
