import Verif.Asn1.Objects
import Verif.Std.Rfc4073

/-! The objects of rfc4073 (generated by tools/objgen.py from tools/std/objects.txt). -/

set_option maxRecDepth 100000

namespace Verif
namespace Std
namespace Rfc4073

open Asn1 Spec.X680

def objects : List Object :=
  [⟨.CONTENT_TYPE, .oid [1, 2, 840, 113549, 1, 9, 16, 1, 19], ContentCollection, (some .same)⟩,
   ⟨.CONTENT_TYPE, .oid [1, 2, 840, 113549, 1, 9, 16, 1, 20], ContentWithAttributes, (some .same)⟩]

def unlisted : List (ObjClass × Val) :=
  []

def registered : Objects := ⟨Verif.Rfc4073.asModule, objects, unlisted⟩

end Rfc4073
end Std
end Verif
