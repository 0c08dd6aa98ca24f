import Verif.Asn1.Objects
import Verif.Std.Rfc8479

/-! The objects of rfc8479 (generated by tools/objgen.py from tools/std/objects.txt). -/

set_option maxRecDepth 100000

namespace Verif
namespace Std
namespace Rfc8479

open Asn1 Spec.X680

def objects : List Object :=
  [⟨.CMS_ATTRIBUTE, .oid [1, 3, 6, 1, 4, 1, 2312, 18, 8, 1], ValidationParams, (some .same)⟩]

def unlisted : List (ObjClass × Val) :=
  []

def registered : Objects := ⟨Verif.Rfc8479.asModule, objects, unlisted⟩

end Rfc8479
end Std
end Verif
