import Verif.Asn1.Objects
import Verif.Std.Rfc3161

/-! The objects of rfc3161 (generated by tools/objgen.py from tools/std/objects.txt). -/

set_option maxRecDepth 100000

namespace Verif
namespace Std
namespace Rfc3161

open Asn1 Spec.X680

def objects : List Object :=
  [⟨.CONTENT_TYPE, .oid [1, 2, 840, 113549, 1, 9, 16, 1, 4], TSTInfo, none⟩]

def unlisted : List (ObjClass × Val) :=
  []

def registered : Objects := ⟨Verif.Rfc3161.asModule, objects, unlisted⟩

end Rfc3161
end Std
end Verif
