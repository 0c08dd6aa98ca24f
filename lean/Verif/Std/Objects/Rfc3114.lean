import Verif.Asn1.Objects
import Verif.Std.Rfc3114

/-! The objects of rfc3114 (generated by tools/objgen.py from tools/std/objects.txt). -/

set_option maxRecDepth 100000

namespace Verif
namespace Std
namespace Rfc3114

open Asn1 Spec.X680

def objects : List Object :=
  [⟨.SECURITY_CATEGORY, .oid [1, 2, 840, 113549, 1, 9, 16, 7, 4], SecurityCategoryValues, (some .same)⟩]

def unlisted : List (ObjClass × Val) :=
  []

def registered : Objects := ⟨Verif.Rfc3114.asModule, objects, unlisted⟩

end Rfc3114
end Std
end Verif
