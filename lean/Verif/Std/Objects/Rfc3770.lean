import Verif.Asn1.Objects
import Verif.Std.Rfc3770

/-! The objects of rfc3770 (generated by tools/objgen.py from tools/std/objects.txt). -/

set_option maxRecDepth 100000

namespace Verif
namespace Std
namespace Rfc3770

open Asn1 Spec.X680

def objects : List Object :=
  [⟨.EXTENSION, .oid [1, 3, 6, 1, 5, 5, 7, 1, 13], SSIDList, (some .same)⟩]

def unlisted : List (ObjClass × Val) :=
  [(.ATTRIBUTE, .oid [1, 3, 6, 1, 5, 5, 7, 10, 7])]

def registered : Objects := ⟨Verif.Rfc3770.asModule, objects, unlisted⟩

end Rfc3770
end Std
end Verif
